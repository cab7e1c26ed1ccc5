import Verif.Model.FpDcmpf
import Verif.Lemmas.FpHourAngle

/-
Property theorems C139: scales and non-perpendicularity of a linear fit in double precision.
-/
namespace Sla.Props
open Sla.Fp
open Real (pi)

private theorem root_near (R : Rounding binary64) (u v : ℝ) :
    |rootSq R u v - Real.sqrt (u * u + v * v)| ≤ 6e-16 * Real.sqrt (u * u + v * v) + 2e-90 := by
  have u0 := mul_self_nonneg u
  have v0 := mul_self_nonneg v
  have h1 := R.dbl (u * u)
  have h2 := R.dbl (v * v)
  have h3 := R.dbl (R (u * u) + R (v * v))
  rw [abs_of_nonneg u0] at h1
  rw [abs_of_nonneg v0] at h2
  rw [abs_of_nonneg (add_nonneg (R.nonneg u0) (R.nonneg v0))] at h3
  have h4 : |R (R (u * u) + R (v * v)) - (u * u + v * v)| ≤ 4e-16 * (u * u + v * v) + 1e-190 := by
    have a1 := abs_le.1 h1
    have a2 := abs_le.1 h2
    have a3 := abs_le.1 h3
    generalize u * u = U at *
    generalize v * v = V at *
    obtain ⟨a1, a1'⟩ := a1
    obtain ⟨a2, a2'⟩ := a2
    obtain ⟨a3, a3'⟩ := a3
    rw [abs_le]; constructor <;> norm_num at a1 a1' a2 a2' a3 a3' ⊢ <;> linarith
  have h5 := sqrt_rel (add_nonneg u0 v0) h4
  have h6 := R.dbl (Real.sqrt (R (R (u * u) + R (v * v))))
  rw [abs_of_nonneg (Real.sqrt_nonneg _)] at h6
  unfold rootSq
  have s0 := Real.sqrt_nonneg (u * u + v * v)
  have h7 := (abs_le.1 h5).2
  have h8 := abs_sub_le (R (Real.sqrt (R (R (u * u) + R (v * v))))) (Real.sqrt (R (R (u * u) + R (v * v)))) (Real.sqrt (u * u + v * v))
  generalize Real.sqrt (u * u + v * v) = s at *
  generalize Real.sqrt (R (R (u * u) + R (v * v))) = s' at *
  norm_num at h5 h6 h7 h8 ⊢; linarith

private theorem at2_guard {at2 : ℝ → ℝ → ℝ} (hat : Spec.Atan2Near at2 1e-15) (y x : ℝ) :
    ∃ k : ℤ, |(if y ≠ 0 ∨ x ≠ 0 then at2 y x else 0) - (atan2 y x + 2 * pi * k)| ≤ 1e-15 ∧ |(if y ≠ 0 ∨ x ≠ 0 then at2 y x else 0)| ≤ pi + 1e-15 := by
  split_ifs with h
  · exact at2_turn hat y x
  · push Not at h
    obtain ⟨rfl, rfl⟩ := h
    refine ⟨0, ?_, by simp; linarith [Real.pi_pos]⟩
    have : atan2 0 0 = 0 := by unfold atan2; exact Complex.arg_zero
    rw [this]; norm_num

set_option maxHeartbeats 1000000 in
/-- C139: for the fit `x2 = a + b x1 + c y1`, `y2 = d + e x1 + f y1`, the scales that `dcmpf` finds in double precision are the lengths of
    (b, e) and (c, f), the first with a sign, to within 6e-16 relative; the sign is that of the determinant `b f - c e`, unless this is
    below 1.3e-16 of the sum of the magnitudes of its terms; and the non-perpendicularity is the sum of the position angles of (f, c) and
    (b, e), the latter reversed if the sign is negative, to within 4e-15 and whole turns. -/
theorem C139_dcmpf (R : Rounding binary64) (sn cs : ℝ → ℝ) {at2 : ℝ → ℝ → ℝ} (hat : Spec.Atan2Near at2 1e-15) (m : FitCoeffs) :
    let t := Fp.dcmpf R sn cs at2 m
    let tol := 1.3e-16 * (|m.b * m.f| + |m.c * m.e|) + 1e-190
    |t.ys - Real.sqrt (m.c * m.c + m.f * m.f)| ≤ 6e-16 * Real.sqrt (m.c * m.c + m.f * m.f) + 2e-90 ∧
    ∃ σ : ℝ, (σ = 1 ∨ σ = -1) ∧ (tol ≤ m.b * m.f - m.c * m.e → σ = 1) ∧ (m.b * m.f - m.c * m.e ≤ -tol → σ = -1) ∧
      |t.xs - σ * Real.sqrt (m.b * m.b + m.e * m.e)| ≤ 6e-16 * Real.sqrt (m.b * m.b + m.e * m.e) + 2e-90 ∧
      |t.perp| ≤ 3.15 ∧ ∃ n : ℤ, |t.perp - (atan2 m.c m.f + atan2 (σ * m.e) (σ * m.b) + n * (2 * pi))| ≤ 4e-15 := by
  intro t tol
  have p2 := Real.pi_lt_d20
  refine ⟨root_near R _ _, ?_⟩
  have perp : ∀ e b : ℝ, |Fp.drange R (R ((if m.c ≠ 0 ∨ m.f ≠ 0 then at2 m.c m.f else 0) + (if e ≠ 0 ∨ b ≠ 0 then at2 e b else 0)))| ≤ 3.15 ∧
      ∃ n : ℤ, |Fp.drange R (R ((if m.c ≠ 0 ∨ m.f ≠ 0 then at2 m.c m.f else 0) + (if e ≠ 0 ∨ b ≠ 0 then at2 e b else 0))) -
        (atan2 m.c m.f + atan2 e b + n * (2 * pi))| ≤ 4e-15 := by
    intro e b
    obtain ⟨k1, a1, a2⟩ := at2_guard hat m.c m.f
    obtain ⟨k2, b1, b2⟩ := at2_guard hat e b
    generalize (if m.c ≠ 0 ∨ m.f ≠ 0 then at2 m.c m.f else 0) = u at *
    generalize (if e ≠ 0 ∨ b ≠ 0 then at2 e b else 0) = v at *
    have uv : |u + v| ≤ 6.3 := (abs_add_le _ _).trans (by norm_num at *; linarith)
    have r1 := R.dbl (u + v)
    have r2 : |R (u + v) - (u + v)| ≤ 1e-15 := r1.trans (by norm_num at *; linarith)
    have r3 : |R (u + v)| ≤ 10 := by
      have := abs_add_le (R (u + v) - (u + v)) (u + v)
      rw [sub_add_cancel] at this
      norm_num at *; linarith
    obtain ⟨⟨j, hj⟩, hw⟩ := drange_turn R (R.rep (u + v)) r3
    refine ⟨hw, j + k1 + k2, ?_⟩
    have e1 : Fp.drange R (R (u + v)) - (atan2 m.c m.f + atan2 e b + ((j + k1 + k2 : ℤ) : ℝ) * (2 * pi)) =
      (Fp.drange R (R (u + v)) - (R (u + v) + j * (2 * pi))) + (R (u + v) - (u + v)) + (u - (atan2 m.c m.f + 2 * pi * k1)) +
        (v - (atan2 e b + 2 * pi * k2)) := by push_cast; ring
    rw [e1]
    refine (abs_add_le _ _).trans ?_
    refine (add_le_add_left (abs_add_three _ _ _) _).trans ?_
    norm_num at *; linarith
  have d1 := abs_le.1 (R.dbl (m.b * m.f))
  have d2 := abs_le.1 (R.dbl (m.c * m.e))
  by_cases pos : R (R (m.b * m.f) - R (m.c * m.e)) ≥ 0
  · refine ⟨1, Or.inl rfl, fun _ => rfl, fun h => ?_, ?_, ?_⟩
    · exfalso
      have h1 : R (m.b * m.f) - R (m.c * m.e) ≤ -1e-191 := by
        simp only [tol] at h
        have := abs_nonneg (m.b * m.f); have := abs_nonneg (m.c * m.e)
        obtain ⟨d1, d1'⟩ := d1
        obtain ⟨d2, d2'⟩ := d2
        generalize |m.b * m.f| = U at *
        generalize |m.c * m.e| = V at *
        norm_num at d1 d1' d2 d2' h ⊢; linarith
      have h2 := (sign_test R (-(R (m.b * m.f) - R (m.c * m.e)))).2
      have h3 := R.dbl (R (m.b * m.f) - R (m.c * m.e))
      have h4 := (abs_le.1 h3).2
      rw [abs_of_nonpos (h1.trans (by norm_num))] at h4
      norm_num at h1 h4; linarith
    · simp only [t, Fp.dcmpf, if_pos pos, one_mul]
      exact root_near R _ _
    · simp only [t, Fp.dcmpf, if_pos pos, one_mul]
      exact perp _ _
  · refine ⟨-1, Or.inr rfl, fun h => ?_, fun _ => rfl, ?_, ?_⟩
    · exfalso
      refine pos (R.nonneg ?_)
      simp only [tol] at h
      have := abs_nonneg (m.b * m.f); have := abs_nonneg (m.c * m.e)
      obtain ⟨d1, d1'⟩ := d1
      obtain ⟨d2, d2'⟩ := d2
      generalize |m.b * m.f| = U at *
      generalize |m.c * m.e| = V at *
      norm_num at d1 d1' d2 d2' h ⊢; linarith
    · simp only [t, Fp.dcmpf, if_neg pos]
      rw [show -rootSq R m.b m.e - -1 * Real.sqrt (m.b * m.b + m.e * m.e) = -(rootSq R m.b m.e - Real.sqrt (m.b * m.b + m.e * m.e)) by ring, abs_neg]
      exact root_near R _ _
    · simp only [t, Fp.dcmpf, if_neg pos, neg_one_mul]
      exact perp _ _

/-- A fit that reverses the x axis: the determinant is -2, so the sign is negative and the x scale close to -1. -/
example (R : Rounding binary64) (sn cs : ℝ → ℝ) {at2 : ℝ → ℝ → ℝ} (hat : Spec.Atan2Near at2 1e-15) :
    |(Fp.dcmpf R sn cs at2 ⟨5, -1, 0, 7, 0, 2⟩).xs - (-1)| ≤ 1e-15 := by
  obtain ⟨-, σ, -, -, h, h1, -⟩ := C139_dcmpf R sn cs hat ⟨5, -1, 0, 7, 0, 2⟩
  rw [h (by norm_num)] at h1
  norm_num at h1 ⊢
  exact h1.trans (by norm_num)

end Sla.Props
