import Verif.Lemmas.Linear
import Mathlib.Tactic.NormNum
import Mathlib.LinearAlgebra.Matrix.Notation

/-
C43: `dmat`/`smat` solve simultaneous equations and invert the matrix.
-/
namespace Sla.Props
open Matrix Sla

variable {n : ℕ}

/-- C43: for every size, matrix, vector and workspace contents the call is free of undefined behaviour; when it does not
    report a singular matrix, the array holds the inverse (on both sides), the vector holds the one and only solution of
    the equations and the determinant is that of the original matrix; otherwise the determinant is 0. -/
theorem C43_dmat (A : NMat n) (b : Fin n → ℝ) (ws : Fin n → ℤ) :
    ∃ r, dmat A b ws = some r ∧ (r.singular = true → r.det = 0) ∧
      (r.singular = false → r.mat * A = 1 ∧ A * r.mat = 1 ∧ r.det = A.det ∧ A.det ≠ 0 ∧
        ∀ x, A *ᵥ x = b ↔ x = r.vec) := by
  obtain ⟨r, h1, h2, h3⟩ := dmatEps_spec (eps := 1e-20) (by norm_num) A b ws
  refine ⟨r, h1, h2, fun hs => ?_⟩
  obtain ⟨a, b', c⟩ := h3 hs
  have a' : A * r.mat = 1 := mul_eq_one_comm.1 a
  refine ⟨a, a', c, ?_, fun x => ⟨fun hx => ?_, fun hx => ?_⟩⟩
  · intro h0
    have := congrArg Matrix.det a
    rw [Matrix.det_mul, h0, mul_zero, Matrix.det_one] at this
    exact absurd this (by norm_num)
  · rw [b', ← hx, Matrix.mulVec_mulVec, a, Matrix.one_mulVec]
  · rw [hx, b', Matrix.mulVec_mulVec, a', Matrix.one_mulVec]

/-- C43: an exactly singular matrix is always reported. -/
theorem C43_singular (A : NMat n) (b : Fin n → ℝ) (ws : Fin n → ℤ) (hA : A.det = 0) :
    ∃ r, dmat A b ws = some r ∧ r.singular = true ∧ r.det = 0 := by
  obtain ⟨r, h1, h2, h3⟩ := C43_dmat A b ws
  by_cases hs : r.singular = true
  · exact ⟨r, h1, hs, h2 hs⟩
  · exact absurd hA (h3 (by simpa using hs)).2.2.2.1

/-- C43: the report is otherwise only a matter of the threshold 1e-20: for every non-singular matrix there is a positive
    threshold at and below which the same code does not report it. -/
theorem C43_threshold (A : NMat n) (b : Fin n → ℝ) (ws : Fin n → ℤ) (hA : A.det ≠ 0) :
    ∃ e > 0, ∀ eps, 0 < eps → eps ≤ e → ∃ r, dmatEps eps A b ws = some r ∧ r.singular = false := by
  obtain ⟨e, he, s, hs, -, -, hall⟩ := dmatAfter_complete A b ws hA n le_rfl
  refine ⟨e, he, fun eps h0 h1 => ?_⟩
  obtain ⟨r, hr, h2, h3⟩ := dmatEps_spec h0 A b ws
  refine ⟨r, hr, ?_⟩
  unfold dmatEps at hr
  rw [dmatLoop_eq, hall eps h0 h1] at hr
  dsimp only at hr
  rw [hs] at hr
  simp only [Bool.false_eq_true, if_false, Option.map_eq_some_iff] at hr
  obtain ⟨m, -, rfl⟩ := hr
  rfl

/-- C43: the threshold is absolute: a perfectly conditioned 1x1 system with the small coefficient 1e-21 is reported as
    singular although it is not. -/
theorem C43_false_alarm (b : Fin 1 → ℝ) (ws : Fin 1 → ℤ) :
    (!![1e-21] : NMat 1).det ≠ 0 ∧ ∃ r, dmat !![1e-21] b ws = some r ∧ r.singular = true := by
  refine ⟨by norm_num, ?_⟩
  have h : (dmatPivot (!![1e-21] : NMat 1) 0).1 < 1e-20 := by
    rw [(dmatPivot_spec _ _).1]
    have : (dmatPivot (!![1e-21] : NMat 1) 0).2 = 0 := Subsingleton.elim _ _
    rw [this]
    norm_num [abs_of_pos]
  have e : dmatLoop 1e-20 (!![1e-21] : NMat 1) b ws =
      { mat := !![1e-21], vec := b, det := 1, ws := ws, singular := true } := by
    show dmatStep 1e-20 _ 0 = _
    rw [dmatStep_eq]
    dsimp only
    rw [if_pos h]
  unfold dmat dmatEps
  simp [e]

/-- The hypotheses of C43_singular and C43_threshold are met by matrices of every size. -/
example : (0 : NMat 3).det = 0 := by simp
example : (1 : NMat n).det ≠ 0 := by simp
example : ∃ e > 0, ∀ eps, 0 < eps → eps ≤ e →
    ∃ r, dmatEps eps (!![0, 2; 3, 0] : NMat 2) ![1, 1] ![7, -9] = some r ∧ r.singular = false :=
  C43_threshold _ _ _ (by norm_num [Matrix.det_fin_two])

end Sla.Props
