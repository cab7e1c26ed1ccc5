import Verif.Lemmas.Coords
import Verif.Props.Vectors
import Mathlib.Analysis.Calculus.MeanValue
import Mathlib.Analysis.SpecialFunctions.Trigonometric.Deriv

/-
Rotations given by three Euler angles about the Z, Y, Z axes: explicit elements, inverse, dependence on the angles,
angular velocity of a moving frame, and the failure of a family of such rotations to compose exactly.
-/
namespace Sla
open Matrix Spec

/-- The rotation made of a turn of the frame by `-ζ` about Z, then `θ` about Y, then `-z` about Z. -/
noncomputable def eul (ζ θ z : ℝ) : Mat := deuler ['Z', 'Y', 'Z'] (-ζ) θ (-z)

/-- Elementary turns of the frame. -/
noncomputable def rotZ (a : ℝ) : Mat := !![Real.cos a, Real.sin a, 0; -Real.sin a, Real.cos a, 0; 0, 0, 1]
noncomputable def rotY (a : ℝ) : Mat := !![Real.cos a, 0, -Real.sin a; 0, 1, 0; Real.sin a, 0, Real.cos a]

theorem eul_rotation (ζ θ z : ℝ) : IsRotation (eul ζ θ z) := Props.C23_rotation _ _ _ _

theorem eul_eq (ζ θ z : ℝ) : eul ζ θ z = rotZ (-z) * rotY θ * rotZ (-ζ) := by
  have hz : ∀ a, frameMat ez a = rotZ a := by
    intro a; ext i j; fin_cases i <;> fin_cases j <;> simp [frameMat, ez, rotZ]
  have hy : ∀ a, frameMat ey a = rotY a := by
    intro a; ext i j; fin_cases i <;> fin_cases j <;> simp [frameMat, ey, rotY]
  rw [← hz, ← hy, ← hz]
  apply Matrix.ext_of_mulVec_single
  intro i
  unfold eul
  rw [← dmxv_eq, Props.C23_deuler, ← Matrix.mulVec_mulVec, ← Matrix.mulVec_mulVec]
  simp only [frameMat_mulVec]
  simp [axisOf, turnSequence]

/-- The elements. -/
theorem eul_elements (ζ θ z : ℝ) : eul ζ θ z =
    !![Real.cos z * Real.cos θ * Real.cos ζ - Real.sin z * Real.sin ζ,
       -(Real.cos z * Real.cos θ * Real.sin ζ) - Real.sin z * Real.cos ζ, -(Real.cos z * Real.sin θ);
       Real.sin z * Real.cos θ * Real.cos ζ + Real.cos z * Real.sin ζ,
       -(Real.sin z * Real.cos θ * Real.sin ζ) + Real.cos z * Real.cos ζ, -(Real.sin z * Real.sin θ);
       Real.sin θ * Real.cos ζ, -(Real.sin θ * Real.sin ζ), Real.cos θ] := by
  rw [eul_eq]
  ext i j
  fin_cases i <;> fin_cases j <;> simp [rotZ, rotY, Matrix.mul_apply, Fin.sum_univ_three] <;> ring

/-- Exchanging and negating the angles inverts the rotation. -/
theorem eul_inverse (ζ θ z : ℝ) : eul (-z) (-θ) (-ζ) = (eul ζ θ z)ᵀ := by
  rw [eul_elements, eul_elements]
  ext i j
  fin_cases i <;> fin_cases j <;> simp <;> ring

theorem eul_zero : eul 0 0 0 = 1 := by
  rw [eul_elements]; ext i j; fin_cases i <;> fin_cases j <;> simp

/-! ## Lengths -/

theorem len_mulVec {R : Mat} (hR : IsRotation R) (v : Vec) : len (R *ᵥ v) = len v := by
  unfold len
  rw [dotProduct_mulVec, ← mulVec_transpose, mulVec_mulVec, hR.transpose_mul_self, one_mulVec]

theorem dot_self_nonneg' (v : Vec) : 0 ≤ v ⬝ᵥ v := by
  simp only [dotProduct, Fin.sum_univ_three]; nlinarith [sq_nonneg (v 0), sq_nonneg (v 1), sq_nonneg (v 2)]

theorem abs_dot_le_len (u v : Vec) : |u ⬝ᵥ v| ≤ len u * len v := by
  unfold len
  rw [← Real.sqrt_mul (dot_self_nonneg' u)]
  apply Real.abs_le_sqrt
  simp only [dotProduct, Fin.sum_univ_three]
  nlinarith [sq_nonneg (u 0 * v 1 - u 1 * v 0), sq_nonneg (u 0 * v 2 - u 2 * v 0), sq_nonneg (u 1 * v 2 - u 2 * v 1)]

theorem len_cross_le (u v : Vec) : len (u ⨯₃ v) ≤ len u * len v := by
  unfold len
  rw [← Real.sqrt_mul (dot_self_nonneg' u)]
  apply Real.sqrt_le_sqrt
  simp only [dotProduct, Fin.sum_univ_three, cross_apply, Matrix.cons_val_zero, Matrix.cons_val_one, Matrix.cons_val]
  nlinarith [sq_nonneg (u 0 * v 0 + u 1 * v 1 + u 2 * v 2)]

theorem len_nonneg' (v : Vec) : 0 ≤ len v := Real.sqrt_nonneg _

theorem len_mul_self (v : Vec) : len v * len v = v ⬝ᵥ v := Real.mul_self_sqrt (dot_self_nonneg' v)

theorem len_neg' (v : Vec) : len (-v) = len v := by unfold len; simp

/-! ## Dependence on the angles -/

private theorem chord (a b : ℝ) : (Real.cos a - Real.cos b) ^ 2 + (Real.sin a - Real.sin b) ^ 2 ≤ (a - b) ^ 2 := by
  have h := Real.one_sub_sq_div_two_le_cos (x := a - b)
  rw [Real.cos_sub] at h
  nlinarith [Real.sin_sq_add_cos_sq a, Real.sin_sq_add_cos_sq b]

theorem rotZ_near (a b : ℝ) (v : Vec) : len (rotZ a *ᵥ v - rotZ b *ᵥ v) ≤ |a - b| * len v := by
  unfold len
  rw [← Real.sqrt_sq_eq_abs, ← Real.sqrt_mul (sq_nonneg _)]
  apply Real.sqrt_le_sqrt
  simp only [rotZ, dotProduct, mulVec, Fin.sum_univ_three, Pi.sub_apply, Matrix.of_apply, Matrix.cons_val_zero,
    Matrix.cons_val_one, Matrix.cons_val]
  have h := chord a b
  have : (Real.cos a * v 0 + Real.sin a * v 1 + 0 * v 2 - (Real.cos b * v 0 + Real.sin b * v 1 + 0 * v 2)) *
      (Real.cos a * v 0 + Real.sin a * v 1 + 0 * v 2 - (Real.cos b * v 0 + Real.sin b * v 1 + 0 * v 2)) +
      (-Real.sin a * v 0 + Real.cos a * v 1 + 0 * v 2 - (-Real.sin b * v 0 + Real.cos b * v 1 + 0 * v 2)) *
      (-Real.sin a * v 0 + Real.cos a * v 1 + 0 * v 2 - (-Real.sin b * v 0 + Real.cos b * v 1 + 0 * v 2)) +
      (0 * v 0 + 0 * v 1 + 1 * v 2 - (0 * v 0 + 0 * v 1 + 1 * v 2)) *
      (0 * v 0 + 0 * v 1 + 1 * v 2 - (0 * v 0 + 0 * v 1 + 1 * v 2)) =
      ((Real.cos a - Real.cos b) ^ 2 + (Real.sin a - Real.sin b) ^ 2) * (v 0 ^ 2 + v 1 ^ 2) := by ring
  rw [this]
  calc _ ≤ (a - b) ^ 2 * (v 0 ^ 2 + v 1 ^ 2) := mul_le_mul_of_nonneg_right h (by positivity)
    _ ≤ _ := mul_le_mul_of_nonneg_left (by nlinarith [sq_nonneg (v 2)]) (sq_nonneg _)

private theorem rotY_near (a b : ℝ) (v : Vec) : len (rotY a *ᵥ v - rotY b *ᵥ v) ≤ |a - b| * len v := by
  unfold len
  rw [← Real.sqrt_sq_eq_abs, ← Real.sqrt_mul (sq_nonneg _)]
  apply Real.sqrt_le_sqrt
  simp only [rotY, dotProduct, mulVec, Fin.sum_univ_three, Pi.sub_apply, Matrix.of_apply, Matrix.cons_val_zero,
    Matrix.cons_val_one, Matrix.cons_val]
  have h := chord a b
  have : (Real.cos a * v 0 + 0 * v 1 + -Real.sin a * v 2 - (Real.cos b * v 0 + 0 * v 1 + -Real.sin b * v 2)) *
      (Real.cos a * v 0 + 0 * v 1 + -Real.sin a * v 2 - (Real.cos b * v 0 + 0 * v 1 + -Real.sin b * v 2)) +
      (0 * v 0 + 1 * v 1 + 0 * v 2 - (0 * v 0 + 1 * v 1 + 0 * v 2)) *
      (0 * v 0 + 1 * v 1 + 0 * v 2 - (0 * v 0 + 1 * v 1 + 0 * v 2)) +
      (Real.sin a * v 0 + 0 * v 1 + Real.cos a * v 2 - (Real.sin b * v 0 + 0 * v 1 + Real.cos b * v 2)) *
      (Real.sin a * v 0 + 0 * v 1 + Real.cos a * v 2 - (Real.sin b * v 0 + 0 * v 1 + Real.cos b * v 2)) =
      ((Real.cos a - Real.cos b) ^ 2 + (Real.sin a - Real.sin b) ^ 2) * (v 0 ^ 2 + v 2 ^ 2) := by ring
  rw [this]
  calc _ ≤ (a - b) ^ 2 * (v 0 ^ 2 + v 2 ^ 2) := mul_le_mul_of_nonneg_right h (by positivity)
    _ ≤ _ := mul_le_mul_of_nonneg_left (by nlinarith [sq_nonneg (v 1)]) (sq_nonneg _)

theorem rotZ_rotation (a : ℝ) : IsRotation (rotZ a) := by
  have : frameMat ez a = rotZ a := by ext i j; fin_cases i <;> fin_cases j <;> simp [frameMat, ez, rotZ]
  rw [← this]; exact frameMat_rotation ez (by simp [ez]) a

theorem rotY_rotation (a : ℝ) : IsRotation (rotY a) := by
  have : frameMat ey a = rotY a := by ext i j; fin_cases i <;> fin_cases j <;> simp [frameMat, ey, rotY]
  rw [← this]; exact frameMat_rotation ey (by simp [ey]) a

/-- The image of a vector moves by no more than the sum of the changes of the angles. -/
theorem eul_near (ζ θ z ζ' θ' z' : ℝ) (v : Vec) :
    len (eul ζ θ z *ᵥ v - eul ζ' θ' z' *ᵥ v) ≤ (|ζ - ζ'| + |θ - θ'| + |z - z'|) * len v := by
  rw [eul_eq, eul_eq]
  simp only [← Matrix.mulVec_mulVec]
  set p := rotZ (-ζ) *ᵥ v
  set p' := rotZ (-ζ') *ᵥ v
  have hp : len (p - p') ≤ |ζ - ζ'| * len v := by
    have := rotZ_near (-ζ) (-ζ') v
    rwa [show -ζ - -ζ' = -(ζ - ζ') by ring, abs_neg] at this
  have hp' : len p' = len v := len_mulVec (rotZ_rotation _) v
  set q := rotY θ *ᵥ p
  set q' := rotY θ' *ᵥ p'
  have hq' : len q' = len v := by rw [← hp']; exact len_mulVec (rotY_rotation _) p'
  have hq : len (q - q') ≤ (|ζ - ζ'| + |θ - θ'|) * len v := by
    have e : q - q' = rotY θ *ᵥ (p - p') + (rotY θ *ᵥ p' - rotY θ' *ᵥ p') := by
      rw [Matrix.mulVec_sub]; simp only [q, q']; abel
    rw [e]
    refine (len_add_le _ _).trans ?_
    rw [len_mulVec (rotY_rotation _)]
    have := rotY_near θ θ' p'
    rw [hp'] at this
    linarith
  have e : rotZ (-z) *ᵥ q - rotZ (-z') *ᵥ q' = rotZ (-z) *ᵥ (q - q') + (rotZ (-z) *ᵥ q' - rotZ (-z') *ᵥ q') := by
    rw [Matrix.mulVec_sub]; abel
  rw [e]
  refine (len_add_le _ _).trans ?_
  rw [len_mulVec (rotZ_rotation _)]
  have := rotZ_near (-z) (-z') q'
  rw [hq', show -z - -z' = -(z - z') by ring, abs_neg] at this
  linarith

/-! ## Angular velocity -/

/-- Angular velocity of the moving frame, in that frame (with the sign of the motion of coordinates). -/
noncomputable def eulRate (θ z dζ dθ dz : ℝ) : Vec :=
  ![dθ * Real.sin z - dζ * Real.sin θ * Real.cos z, -(dθ * Real.cos z) - dζ * Real.sin θ * Real.sin z,
    dz + dζ * Real.cos θ]

theorem eul_deriv {ζ θ z : ℝ → ℝ} {dζ dθ dz s : ℝ} (h1 : HasDerivAt ζ dζ s) (h2 : HasDerivAt θ dθ s)
    (h3 : HasDerivAt z dz s) (v : Vec) (i : Fin 3) :
    HasDerivAt (fun s => (eul (ζ s) (θ s) (z s) *ᵥ v) i)
      ((eulRate (θ s) (z s) dζ dθ dz ⨯₃ (eul (ζ s) (θ s) (z s) *ᵥ v)) i) s := by
  have s1 := h1.sin
  have c1 := h1.cos
  have s2 := h2.sin
  have c2 := h2.cos
  have s3 := h3.sin
  have c3 := h3.cos
  have e1 := Real.sin_sq_add_cos_sq (ζ s)
  have e2 := Real.sin_sq_add_cos_sq (θ s)
  have e3 := Real.sin_sq_add_cos_sq (z s)
  simp only [eul_elements]
  fin_cases i
  · have := ((((c3.mul c2).mul c1).sub (s3.mul s1)).mul_const (v 0)).add
      (((((c3.mul c2).mul s1).neg.sub (s3.mul c1)).mul_const (v 1)).add ((c3.mul s2).neg.mul_const (v 2)))
    refine (this.congr_of_eventuallyEq (Filter.Eventually.of_forall fun s => ?_)).congr_deriv ?_
    · simp [mulVec, dotProduct, Fin.sum_univ_three]; ring
    · simp [dotProduct, Fin.sum_univ_three, cross_apply, eulRate]
      linear_combination (dζ * Real.sin (z s) * Real.cos (ζ s) * v 0 - dζ * Real.sin (z s) * Real.sin (ζ s) * v 1) * e2
  · have := ((((s3.mul c2).mul c1).add (c3.mul s1)).mul_const (v 0)).add
      (((((s3.mul c2).mul s1).neg.add (c3.mul c1)).mul_const (v 1)).add ((s3.mul s2).neg.mul_const (v 2)))
    refine (this.congr_of_eventuallyEq (Filter.Eventually.of_forall fun s => ?_)).congr_deriv ?_
    · simp [mulVec, dotProduct, Fin.sum_univ_three]; ring
    · simp [dotProduct, Fin.sum_univ_three, cross_apply, eulRate]
      linear_combination (-dζ * Real.cos (z s) * Real.cos (ζ s) * v 0 + dζ * Real.cos (z s) * Real.sin (ζ s) * v 1) * e2
  · have := ((s2.mul c1).mul_const (v 0)).add (((s2.mul s1).neg.mul_const (v 1)).add (c2.mul_const (v 2)))
    refine (this.congr_of_eventuallyEq (Filter.Eventually.of_forall fun s => ?_)).congr_deriv ?_
    · simp [mulVec, dotProduct, Fin.sum_univ_three]; ring
    · simp [dotProduct, Fin.sum_univ_three, cross_apply, eulRate]
      linear_combination (-(dθ * Real.cos (θ s) * Real.cos (ζ s) - dζ * Real.sin (θ s) * Real.sin (ζ s)) * v 0 +
        (dθ * Real.cos (θ s) * Real.sin (ζ s) + dζ * Real.sin (θ s) * Real.cos (ζ s)) * v 1 +
        dθ * Real.sin (θ s) * v 2) * e3

/-- A family of rotations `M a s` (from `a` to `s`) whose angular velocities differ by no more than `δ` from one that
    does not depend on `a` composes to within `2 δ` times the interval. -/
theorem eul_compose {ζ θ z dζ dθ dz : ℝ → ℝ → ℝ} {Ω : ℝ → Vec} {lo hi δ : ℝ}
    (h0 : ∀ a, ζ a a = 0 ∧ θ a a = 0 ∧ z a a = 0)
    (hd : ∀ a s, HasDerivAt (ζ a) (dζ a s) s ∧ HasDerivAt (θ a) (dθ a s) s ∧ HasDerivAt (z a) (dz a s) s)
    (hΩ : ∀ a ∈ Set.Icc lo hi, ∀ s ∈ Set.Icc lo hi,
      len (eulRate (θ a s) (z a s) (dζ a s) (dθ a s) (dz a s) - Ω s) ≤ δ)
    {a b c : ℝ} (ha : a ∈ Set.Icc lo hi) (hb : b ∈ Set.Icc lo hi) (hc : c ∈ Set.Icc lo hi) (v : Vec) :
    len (eul (ζ b c) (θ b c) (z b c) *ᵥ (eul (ζ a b) (θ a b) (z a b) *ᵥ v) - eul (ζ a c) (θ a c) (z a c) *ᵥ v) ≤
      2 * δ * |c - b| * len v := by
  set M : ℝ → ℝ → Mat := fun a s => eul (ζ a s) (θ a s) (z a s) with hM
  have hrot : ∀ a s, IsRotation (M a s) := fun a s => eul_rotation _ _ _
  have hbb : M b b = 1 := by
    obtain ⟨e1, e2, e3⟩ := h0 b
    simp only [hM, e1, e2, e3, eul_zero]
  set ω : ℝ → ℝ → Vec := fun a s => eulRate (θ a s) (z a s) (dζ a s) (dθ a s) (dz a s) with hω
  have main : ∀ w : Vec, |(M b c *ᵥ w) ⬝ᵥ (M a c *ᵥ v) - (M b b *ᵥ w) ⬝ᵥ (M a b *ᵥ v)| ≤
      2 * δ * (len w * len v) * |c - b| := by
    intro w
    have hderiv : ∀ s, HasDerivAt (fun s => (M b s *ᵥ w) ⬝ᵥ (M a s *ᵥ v))
        ((M b s *ᵥ w) ⬝ᵥ ((ω a s - ω b s) ⨯₃ (M a s *ᵥ v))) s := by
      intro s
      obtain ⟨p1, p2, p3⟩ := hd a s
      obtain ⟨q1, q2, q3⟩ := hd b s
      have A := fun i => eul_deriv p1 p2 p3 v i
      have B := fun i => eul_deriv q1 q2 q3 w i
      have := (((B 0).mul (A 0)).add ((B 1).mul (A 1))).add ((B 2).mul (A 2))
      refine (this.congr_of_eventuallyEq (Filter.Eventually.of_forall fun s => ?_)).congr_deriv ?_
      · simp only [hM, dotProduct, Fin.sum_univ_three]; rfl
      · simp only [hM, hω]
        generalize eul (ζ b s) (θ b s) (z b s) *ᵥ w = y
        generalize eul (ζ a s) (θ a s) (z a s) *ᵥ v = x
        generalize eulRate (θ a s) (z a s) (dζ a s) (dθ a s) (dz a s) = α
        generalize eulRate (θ b s) (z b s) (dζ b s) (dθ b s) (dz b s) = β
        simp [dotProduct, Fin.sum_univ_three, cross_apply]
        ring
    have hbound : ∀ s ∈ Set.Icc lo hi, ‖(M b s *ᵥ w) ⬝ᵥ ((ω a s - ω b s) ⨯₃ (M a s *ᵥ v))‖ ≤
        2 * δ * (len w * len v) := by
      intro s hs
      rw [Real.norm_eq_abs]
      refine (abs_dot_le_len _ _).trans ?_
      rw [len_mulVec (hrot _ _)]
      have h1 := len_cross_le (ω a s - ω b s) (M a s *ᵥ v)
      rw [len_mulVec (hrot _ _)] at h1
      have h2 : len (ω a s - ω b s) ≤ 2 * δ := by
        have e : ω a s - ω b s = (ω a s - Ω s) + -(ω b s - Ω s) := by abel
        rw [e]
        refine (len_add_le _ _).trans ?_
        rw [len_neg']
        linarith [hΩ a ha s hs, hΩ b hb s hs]
      have h3 := len_nonneg' w
      have h4 := len_nonneg' v
      calc _ ≤ len w * (len (ω a s - ω b s) * len v) := mul_le_mul_of_nonneg_left h1 h3
        _ ≤ len w * (2 * δ * len v) := by gcongr
        _ = _ := by ring
    have := Convex.norm_image_sub_le_of_norm_hasDerivWithin_le
      (fun s _ => (hderiv s).hasDerivWithinAt) hbound (convex_Icc lo hi) hb hc
    simpa [Real.norm_eq_abs] using this
  set d : Vec := (M b c)ᵀ *ᵥ (M a c *ᵥ v) - M a b *ᵥ v with hd'
  have e : M b c *ᵥ (M a b *ᵥ v) - M a c *ᵥ v = -(M b c *ᵥ d) := by
    rw [hd', Matrix.mulVec_sub, Matrix.mulVec_mulVec (M a c *ᵥ v), (hrot b c).1, Matrix.one_mulVec]; abel
  rw [e, len_neg', len_mulVec (hrot b c)]
  have h := main d
  have e2 : (M b c *ᵥ d) ⬝ᵥ (M a c *ᵥ v) - (M b b *ᵥ d) ⬝ᵥ (M a b *ᵥ v) = d ⬝ᵥ d := by
    rw [hbb, Matrix.one_mulVec]
    have : (M b c *ᵥ d) ⬝ᵥ (M a c *ᵥ v) = d ⬝ᵥ ((M b c)ᵀ *ᵥ (M a c *ᵥ v)) := by
      rw [dotProduct_mulVec d, vecMul_transpose]
    rw [this, ← dotProduct_sub]
  rw [e2, abs_of_nonneg (dot_self_nonneg' d), ← len_mul_self] at h
  rcases (len_nonneg' d).eq_or_lt with h1 | h1
  · rw [← h1]
    have hδ : 0 ≤ δ := (len_nonneg' _).trans (hΩ a ha a ha)
    have := len_nonneg' v
    positivity
  · exact le_of_mul_le_mul_left (by linarith) h1

end Sla
