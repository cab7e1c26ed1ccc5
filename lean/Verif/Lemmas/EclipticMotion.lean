import Verif.Lemmas.PrecMotion
import Mathlib.Analysis.Real.Pi.Bounds

/-
The motion of the ecliptic system: turns about X and Z of a moving vector, a mean value inequality for lengths, and the sine
and cosine of the obliquity.
-/
namespace Sla
open Matrix Spec

/-- Turn of the frame about X. -/
noncomputable def rotX (a : ℝ) : Mat := !![1, 0, 0; 0, Real.cos a, Real.sin a; 0, -Real.sin a, Real.cos a]

theorem rotX_frame (a : ℝ) : frameMat ex a = rotX a := by
  ext i j; fin_cases i <;> fin_cases j <;> simp [frameMat, ex, rotX]

theorem rotX_rotation (a : ℝ) : IsRotation (rotX a) := by
  rw [← rotX_frame]; exact frameMat_rotation ex (by simp [ex]) a

theorem rotZ_frame (a : ℝ) : frameMat ez a = rotZ a := by
  ext i j; fin_cases i <;> fin_cases j <;> simp [frameMat, ez, rotZ]

theorem rotX_moving {u : ℝ → Vec} {ω : Vec} {ε : ℝ → ℝ} {ε' s : ℝ} (hu : ∀ i, HasDerivAt (fun s => u s i) ((ω ⨯₃ u s) i) s)
    (hε : HasDerivAt ε ε' s) (i : Fin 3) : HasDerivAt (fun s => (rotX (ε s) *ᵥ u s) i)
      (((rotX (ε s) *ᵥ ω - ε' • ex) ⨯₃ (rotX (ε s) *ᵥ u s)) i) s := by
  have hs := hε.sin
  have hc := hε.cos
  have e := Real.sin_sq_add_cos_sq (ε s)
  have h0 := hu 0
  have h1 := hu 1
  have h2 := hu 2
  simp only [cross_apply, Matrix.cons_val_zero, Matrix.cons_val_one, Matrix.cons_val] at h0 h1 h2
  fin_cases i
  · refine (h0.congr_of_eventuallyEq (Filter.Eventually.of_forall fun s => ?_)).congr_deriv ?_
    · simp [rotX, mulVec, dotProduct, Fin.sum_univ_three]
    · simp [rotX, mulVec, dotProduct, Fin.sum_univ_three, cross_apply, ex]
      linear_combination -(ω 1 * u s 2 - ω 2 * u s 1) * e
  · have := (hc.mul h1).add (hs.mul h2)
    refine (this.congr_of_eventuallyEq (Filter.Eventually.of_forall fun s => ?_)).congr_deriv ?_
    · simp [rotX, mulVec, dotProduct, Fin.sum_univ_three]
    · simp [rotX, mulVec, dotProduct, Fin.sum_univ_three, cross_apply, ex]
      ring
  · have := (hs.neg.mul h1).add (hc.mul h2)
    refine (this.congr_of_eventuallyEq (Filter.Eventually.of_forall fun s => ?_)).congr_deriv ?_
    · simp [rotX, mulVec, dotProduct, Fin.sum_univ_three]
    · simp [rotX, mulVec, dotProduct, Fin.sum_univ_three, cross_apply, ex]
      ring

theorem rotZ_moving {u : ℝ → Vec} {ω : Vec} {ε : ℝ → ℝ} {ε' s : ℝ} (hu : ∀ i, HasDerivAt (fun s => u s i) ((ω ⨯₃ u s) i) s)
    (hε : HasDerivAt ε ε' s) (i : Fin 3) : HasDerivAt (fun s => (rotZ (ε s) *ᵥ u s) i)
      (((rotZ (ε s) *ᵥ (ω - ε' • ez)) ⨯₃ (rotZ (ε s) *ᵥ u s)) i) s := by
  have hs := hε.sin
  have hc := hε.cos
  have e := Real.sin_sq_add_cos_sq (ε s)
  have h0 := hu 0
  have h1 := hu 1
  have h2 := hu 2
  simp only [cross_apply, Matrix.cons_val_zero, Matrix.cons_val_one, Matrix.cons_val] at h0 h1 h2
  fin_cases i
  · have := (hc.mul h0).add (hs.mul h1)
    refine (this.congr_of_eventuallyEq (Filter.Eventually.of_forall fun s => ?_)).congr_deriv ?_
    · simp [rotZ, mulVec, dotProduct, Fin.sum_univ_three]
    · simp [rotZ, dotProduct, Fin.sum_univ_three, cross_apply, ez, vecHead, vecTail]
      ring
  · have := (hs.neg.mul h0).add (hc.mul h1)
    refine (this.congr_of_eventuallyEq (Filter.Eventually.of_forall fun s => ?_)).congr_deriv ?_
    · simp [rotZ, mulVec, dotProduct, Fin.sum_univ_three]
    · simp [rotZ, dotProduct, Fin.sum_univ_three, cross_apply, ez, vecHead, vecTail]
      ring
  · refine (h2.congr_of_eventuallyEq (Filter.Eventually.of_forall fun s => ?_)).congr_deriv ?_
    · simp [rotZ, mulVec, dotProduct, Fin.sum_univ_three]
    · simp [rotZ, dotProduct, Fin.sum_univ_three, cross_apply, ez, vecHead, vecTail]
      linear_combination -(ω 0 * u s 1 - ω 1 * u s 0) * e

/-- A vector whose rate of change is bounded on an interval. -/
theorem len_moved {f f' : ℝ → Vec} {lo hi C : ℝ} (hf : ∀ s ∈ Set.Icc lo hi, ∀ i, HasDerivAt (fun s => f s i) (f' s i) s)
    (hC : ∀ s ∈ Set.Icc lo hi, len (f' s) ≤ C) {a b : ℝ} (ha : a ∈ Set.Icc lo hi) (hb : b ∈ Set.Icc lo hi) :
    len (f b - f a) ≤ C * |b - a| := by
  set d := f b - f a with hd
  have hderiv : ∀ s ∈ Set.Icc lo hi, HasDerivWithinAt (fun s => d ⬝ᵥ f s) (d ⬝ᵥ f' s) (Set.Icc lo hi) s := by
    intro s hs
    have := ((((hf s hs 0).const_mul (d 0)).add ((hf s hs 1).const_mul (d 1))).add
      ((hf s hs 2).const_mul (d 2))).hasDerivWithinAt (s := Set.Icc lo hi)
    refine (this.congr_of_eventuallyEq (Filter.Eventually.of_forall fun s => ?_) ?_).congr_deriv ?_ <;>
      simp [dotProduct, Fin.sum_univ_three]
  have hbound : ∀ s ∈ Set.Icc lo hi, ‖d ⬝ᵥ f' s‖ ≤ len d * C := fun s hs => by
    rw [Real.norm_eq_abs]
    exact (abs_dot_le_len _ _).trans (mul_le_mul_of_nonneg_left (hC s hs) (len_nonneg' _))
  have h := Convex.norm_image_sub_le_of_norm_hasDerivWithin_le hderiv hbound (convex_Icc lo hi) ha hb
  simp only [Real.norm_eq_abs] at h
  rw [← dotProduct_sub, ← hd, abs_of_nonneg (dot_self_nonneg' d), ← len_mul_self] at h
  rcases (len_nonneg' d).eq_or_lt with h1 | h1
  · rw [← h1]
    have := (len_nonneg' _).trans (hC a ha)
    positivity
  · exact le_of_mul_le_mul_left (by linarith) h1

private theorem sine_of_cosine {c s : ℝ} (h1 : 0.9174816 ≤ c) (h2 : c ≤ 0.9174823) (h3 : 0 ≤ s) (h : s ^ 2 + c ^ 2 = 1) :
    |s - 0.397777| ≤ 2e-6 := by
  have q1 : (0.9174816 : ℝ) ^ 2 ≤ c ^ 2 := by gcongr
  have q2 : c ^ 2 ≤ 0.9174823 ^ 2 := by gcongr
  rw [abs_le]
  constructor
  · by_contra hn
    have : s ^ 2 ≤ 0.397775 ^ 2 := by gcongr; linarith
    norm_num at *; linarith
  · by_contra hn
    have : (0.397779 : ℝ) ^ 2 ≤ s ^ 2 := by gcongr; linarith
    norm_num at *; linarith

/-- Cosine and sine of the obliquity at J2000. -/
theorem obliquity_cs : |Real.cos (84381.448 * as2r) - 0.917482| ≤ 1e-6 ∧ |Real.sin (84381.448 * as2r) - 0.397777| ≤ 2e-6 := by
  set x := 84381.448 * as2r / 8 with hx
  have p1 := Real.pi_gt_d20
  have p2 := Real.pi_lt_d20
  have x1 : 0.05113660 ≤ x := by
    rw [hx, as2r]; norm_num at p1 ⊢; linarith
  have x2 : x ≤ 0.05113661 := by
    rw [hx, as2r]; norm_num at p2 ⊢; linarith
  have hb := Real.sin_bound (x := x) (by rw [abs_le]; constructor <;> linarith)
  rw [abs_of_nonneg (a := x) (by linarith)] at hb
  have x5 : x ^ 5 ≤ 0.05113661 ^ 5 := by gcongr
  have x3l : (0.05113660 : ℝ) ^ 3 ≤ x ^ 3 := by gcongr
  have x3u : x ^ 3 ≤ 0.05113661 ^ 3 := by gcongr
  rw [abs_le] at hb
  have s1 : 0.0511143 ≤ Real.sin x := by norm_num at *; linarith
  have s2 : Real.sin x ≤ 0.0511144 := by norm_num at *; linarith
  have d1 : Real.cos (2 * x) = 1 - 2 * Real.sin x ^ 2 := by
    rw [Real.cos_two_mul]; linarith [Real.sin_sq_add_cos_sq x]
  have q1 : (0.0511143 : ℝ) ^ 2 ≤ Real.sin x ^ 2 := by gcongr
  have q2 : Real.sin x ^ 2 ≤ 0.0511144 ^ 2 := by gcongr
  have a1 : 0.99477463 ≤ Real.cos (2 * x) := by rw [d1]; norm_num at *; linarith
  have a2 : Real.cos (2 * x) ≤ 0.99477466 := by rw [d1]; norm_num at *; linarith
  have q3 : (0.99477463 : ℝ) ^ 2 ≤ Real.cos (2 * x) ^ 2 := by gcongr
  have q4 : Real.cos (2 * x) ^ 2 ≤ 0.99477466 ^ 2 := by gcongr
  have d2 := Real.cos_two_mul (2 * x)
  have b1 : 0.97915312 ≤ Real.cos (2 * (2 * x)) := by rw [d2]; norm_num at *; linarith
  have b2 : Real.cos (2 * (2 * x)) ≤ 0.97915326 := by rw [d2]; norm_num at *; linarith
  have q5 : (0.97915312 : ℝ) ^ 2 ≤ Real.cos (2 * (2 * x)) ^ 2 := by gcongr
  have q6 : Real.cos (2 * (2 * x)) ^ 2 ≤ 0.97915326 ^ 2 := by gcongr
  have d3 := Real.cos_two_mul (2 * (2 * x))
  have e : 84381.448 * as2r = 2 * (2 * (2 * x)) := by rw [hx]; ring
  have c1 : 0.9174816 ≤ Real.cos (84381.448 * as2r) := by rw [e, d3]; norm_num at *; linarith
  have c2 : Real.cos (84381.448 * as2r) ≤ 0.9174823 := by rw [e, d3]; norm_num at *; linarith
  have hp : 0 ≤ Real.sin (84381.448 * as2r) := by
    apply Real.sin_nonneg_of_nonneg_of_le_pi <;> rw [e] <;> linarith [Real.pi_gt_three]
  have hq := Real.sin_sq_add_cos_sq (84381.448 * as2r)
  exact ⟨by rw [abs_le]; constructor <;> linarith, sine_of_cosine c1 c2 hp hq⟩

end Sla
