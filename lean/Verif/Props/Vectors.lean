import Verif.Lemmas.Vectors
import Verif.Lemmas.Arg
import Mathlib.Analysis.Real.Pi.Bounds
import Mathlib.LinearAlgebra.Matrix.DotProduct

/-
Property theorems C18, C20-C23: vector and matrix primitives, axial vectors, Euler rotations.
-/
namespace Sla.Props
open Matrix Spec

/-! ## C18 -/

/-- C18: the primitives are matrix product, matrix-vector product, transposed product, scalar and vector product. -/
theorem C18_primitives (A B : Mat) (u v : Vec) :
    dmxm A B = A * B ∧ dmxv A v = A *ᵥ v ∧ dimxv A v = Aᵀ *ᵥ v ∧ dvdv u v = u ⬝ᵥ v ∧ dvxv u v = u ⨯₃ v :=
  ⟨dmxm_eq A B, dmxv_eq A v, dimxv_eq A v, dvdv_eq u v, dvxv_eq u v⟩

/-- C18: product of matrices is composition of their actions. -/
theorem C18_composition (A B : Mat) (v : Vec) : dmxv (dmxm A B) v = dmxv A (dmxv B v) := by
  simp only [dmxv_eq, dmxm_eq, Matrix.mulVec_mulVec]

/-- C18: for a rotation matrix dimxv and dmxv undo each other, and scalar products are preserved. -/
theorem C18_rotation (R : Mat) (hR : IsRotation R) (u v : Vec) :
    dimxv R (dmxv R v) = v ∧ dmxv R (dimxv R v) = v ∧ dvdv (dmxv R u) (dmxv R v) = dvdv u v ∧
    (dvn (dmxv R v)).1 = (dvn v).1 := by
  have hinv : dimxv R (dmxv R v) = v := by
    rw [dimxv_eq, dmxv_eq, Matrix.mulVec_mulVec, hR.transpose_mul_self, Matrix.one_mulVec]
  have hdot : ∀ u v, dvdv (dmxv R u) (dmxv R v) = dvdv u v := by
    intro u v
    have := rot_cols hR
    have c00 := this 0 0; have c01 := this 0 1; have c02 := this 0 2
    have c11 := this 1 1; have c12 := this 1 2; have c22 := this 2 2
    simp at c00 c01 c02 c11 c12 c22
    unfold dvdv dmxv acc3
    linear_combination (u 0 * v 0) * c00 + (u 0 * v 1 + u 1 * v 0) * c01 + (u 0 * v 2 + u 2 * v 0) * c02 +
      (u 1 * v 1) * c11 + (u 1 * v 2 + u 2 * v 1) * c12 + (u 2 * v 2) * c22
  refine ⟨hinv, ?_, hdot u v, ?_⟩
  · rw [dimxv_eq, dmxv_eq, Matrix.mulVec_mulVec, hR.1, Matrix.one_mulVec]
  · have h := hdot v v
    unfold dvn acc3
    unfold dvdv at h
    simp only
    congr 1; linarith

/-- C18: vector products are carried along by a rotation. -/
theorem C18_rotation_cross (R : Mat) (hR : IsRotation R) (u v : Vec) :
    dvxv (dmxv R u) (dmxv R v) = dmxv R (dvxv u v) := by
  obtain ⟨h00, h01, h02, h10, h11, h12, h20, h21, h22⟩ := rot_cof hR
  funext i
  fin_cases i <;> simp [dvxv, dmxv, acc3] <;> generalize R 0 0 = a at * <;> generalize R 0 1 = b at * <;>
    generalize R 0 2 = c at * <;> generalize R 1 0 = d at * <;> generalize R 1 1 = e at * <;>
    generalize R 1 2 = f at * <;> generalize R 2 0 = g at * <;> generalize R 2 1 = h at * <;>
    generalize R 2 2 = k at *
  · linear_combination -(u 1 * v 2 - u 2 * v 1) * h00 - (u 2 * v 0 - u 0 * v 2) * h01 - (u 0 * v 1 - u 1 * v 0) * h02
  · linear_combination -(u 1 * v 2 - u 2 * v 1) * h10 - (u 2 * v 0 - u 0 * v 2) * h11 - (u 0 * v 1 - u 1 * v 0) * h12
  · linear_combination -(u 1 * v 2 - u 2 * v 1) * h20 - (u 2 * v 0 - u 0 * v 2) * h21 - (u 0 * v 1 - u 1 * v 0) * h22

/-- A non-trivial rotation: a quarter turn about Z. -/
example : IsRotation (!![0, 1, 0; -1, 0, 0; 0, 0, 1] : Mat) := by
  constructor
  · ext i j; fin_cases i <;> fin_cases j <;> simp [Matrix.mul_apply, Fin.sum_univ_three]
  · rw [Matrix.det_fin_three]; simp

/-! ## C20 -/

/-- C20: dvn returns the length and, for a non-null vector, the unit vector along it. -/
theorem C20_dvn (v : Vec) :
    (dvn v).1 = Real.sqrt (v ⬝ᵥ v) ∧ v = (dvn v).1 • (dvn v).2 ∧
    (v ≠ 0 → (dvn v).2 ⬝ᵥ (dvn v).2 = 1 ∧ 0 < (dvn v).1) ∧ (v = 0 → (dvn v).1 = 0 ∧ (dvn v).2 = 0) := by
  have e : (acc3 fun i => v i * v i) = v ⬝ᵥ v := by rw [acc3_eq]; rfl
  have hnn : 0 ≤ v ⬝ᵥ v := Finset.sum_nonneg fun i _ => mul_self_nonneg _
  have h1 : (dvn v).1 = Real.sqrt (v ⬝ᵥ v) := by unfold dvn; simp only [e]
  by_cases hv : v = 0
  · subst hv
    have h0 : (dvn 0).1 = 0 := by rw [h1]; simp
    refine ⟨h1, by simp [h0], by simp, fun _ => ⟨h0, ?_⟩⟩
    funext i; simp [dvn]
  · have hpos : 0 < v ⬝ᵥ v := by
      rcases hnn.lt_or_eq with h | h
      · exact h
      · exact absurd (dotProduct_self_eq_zero.1 h.symm) hv
    have hs : 0 < Real.sqrt (v ⬝ᵥ v) := Real.sqrt_pos.2 hpos
    have h2 : (dvn v).2 = (Real.sqrt (v ⬝ᵥ v))⁻¹ • v := by
      funext i
      unfold dvn
      simp only [e, if_neg (not_le.2 hs), Pi.smul_apply, smul_eq_mul]
      field_simp
    refine ⟨h1, ?_, fun _ => ⟨?_, h1 ▸ hs⟩, fun h => absurd h hv⟩
    · rw [h1, h2, smul_smul, mul_inv_cancel₀ hs.ne', one_smul]
    · rw [h2, smul_dotProduct, dotProduct_smul, smul_eq_mul, smul_eq_mul]
      have := Real.mul_self_sqrt hnn
      field_simp
      nlinarith

example : (![3, 0, 4] : Vec) ≠ 0 := by intro h; have := congrFun h 0; simp at this

/-! ## C21 -/

private theorem dav2m_zero {v : Vec} (h : v = 0) : dav2m v = 1 := by
  subst h
  ext i j
  fin_cases i <;> fin_cases j <;> simp [dav2m]

private theorem dav2m_frameMat (v : Vec) (h : v ≠ 0) :
    dav2m v = frameMat ((Real.sqrt (v ⬝ᵥ v))⁻¹ • v) (Real.sqrt (v ⬝ᵥ v)) := by
  have e : v 0 * v 0 + v 1 * v 1 + v 2 * v 2 = v ⬝ᵥ v := by simp [dotProduct, Fin.sum_univ_three]
  have hne : Real.sqrt (v ⬝ᵥ v) ≠ 0 := by
    intro h0
    rw [Real.sqrt_eq_zero'] at h0
    exact h (dotProduct_self_eq_zero.1 (le_antisymm h0 (Finset.sum_nonneg fun i _ => mul_self_nonneg _)))
  ext i j
  unfold dav2m frameMat
  simp only [e, if_pos hne]
  fin_cases i <;> fin_cases j <;> simp <;> ring_nf <;> simp

private theorem unit_of_ne {v : Vec} (h : v ≠ 0) :
    ((Real.sqrt (v ⬝ᵥ v))⁻¹ • v) ⬝ᵥ ((Real.sqrt (v ⬝ᵥ v))⁻¹ • v) = 1 := by
  have hnn : 0 ≤ v ⬝ᵥ v := Finset.sum_nonneg fun i _ => mul_self_nonneg _
  have hpos : 0 < v ⬝ᵥ v := by
    rcases hnn.lt_or_eq with h' | h'
    · exact h'
    · exact absurd (dotProduct_self_eq_zero.1 h'.symm) h
  have hs : 0 < Real.sqrt (v ⬝ᵥ v) := Real.sqrt_pos.2 hpos
  rw [smul_dotProduct, dotProduct_smul, smul_eq_mul, smul_eq_mul]
  have := Real.mul_self_sqrt hnn
  field_simp
  nlinarith

/-- C21: the matrix is a proper rotation. -/
theorem C21_rotation (v : Vec) : IsRotation (dav2m v) := by
  by_cases h : v = 0
  · rw [dav2m_zero h]; exact IsRotation.one
  · rw [dav2m_frameMat v h]; exact frameMat_rotation _ (unit_of_ne h) _

/-- C21: it turns the frame about the direction of `v` by the angle `|v|` (Rodrigues' formula), in the documented
    sense; for the null vector it is the identity. -/
theorem C21_turns (v w : Vec) :
    dmxv (dav2m v) w = turnFrame ((Real.sqrt (v ⬝ᵥ v))⁻¹ • v) (Real.sqrt (v ⬝ᵥ v)) w ∧ dav2m 0 = 1 := by
  refine ⟨?_, dav2m_zero rfl⟩
  rw [dmxv_eq]
  by_cases h : v = 0
  · rw [dav2m_zero h]; subst h; simp [turnFrame]
  · rw [dav2m_frameMat v h, frameMat_mulVec]

/-- C21: along a fixed unit axis `n`, `dav2m (a • n)` turns by `a` for either sign of `a`. -/
theorem C21_along_axis (n : Vec) (hn : n ⬝ᵥ n = 1) (a : ℝ) (w : Vec) : dmxv (dav2m (a • n)) w = turnFrame n a w := by
  have hl : Real.sqrt ((a • n) ⬝ᵥ (a • n)) = |a| := by
    rw [smul_dotProduct, dotProduct_smul, hn, smul_eq_mul, smul_eq_mul, mul_one, ← sq, Real.sqrt_sq_eq_abs]
  rw [(C21_turns (a • n) w).1, hl]
  rcases lt_trichotomy a 0 with h | h | h
  · have : (|a|)⁻¹ • a • n = -n := by
      rw [smul_smul, abs_of_neg h, inv_neg, neg_mul, inv_mul_cancel₀ h.ne, neg_one_smul]
    rw [this, abs_of_neg h]
    funext i
    fin_cases i <;> simp [turnFrame, cross_apply, dotProduct, Fin.sum_univ_three] <;> ring
  · subst h; simp [turnFrame]
  · have : (|a|)⁻¹ • a • n = n := by rw [smul_smul, abs_of_pos h, inv_mul_cancel₀ h.ne', one_smul]
    rw [this, abs_of_pos h]

/-- C21: `v` itself is unmoved, and the opposite axial vector gives the inverse (transposed) matrix. -/
theorem C21_axis_and_inverse (v : Vec) : dmxv (dav2m v) v = v ∧ dav2m (-v) = (dav2m v)ᵀ ∧
    dmxm (dav2m v) (dav2m (-v)) = 1 := by
  have hT : dav2m (-v) = (dav2m v)ᵀ := by
    ext i j
    rw [Matrix.transpose_apply]
    unfold dav2m
    simp only [Pi.neg_apply, neg_mul_neg]
    split
    · fin_cases i <;> fin_cases j <;> simp <;> ring_nf <;> simp
    · fin_cases i <;> fin_cases j <;> simp <;> ring
  refine ⟨?_, hT, ?_⟩
  · by_cases h : v = 0
    · subst h; rw [dmxv_eq]; simp
    · have hnn : 0 ≤ v ⬝ᵥ v := Finset.sum_nonneg fun i _ => mul_self_nonneg _
      have hne : Real.sqrt (v ⬝ᵥ v) ≠ 0 := by
        intro h0
        rw [Real.sqrt_eq_zero'] at h0
        exact h (dotProduct_self_eq_zero.1 (le_antisymm h0 hnn))
      rw [(C21_turns v v).1]
      unfold turnFrame
      rw [smul_dotProduct, map_smul, LinearMap.smul_apply, cross_self, smul_smul]
      simp only [smul_zero, sub_zero, smul_eq_mul]
      have hm := Real.mul_self_sqrt hnn
      have : (1 - Real.cos (Real.sqrt (v ⬝ᵥ v))) * ((Real.sqrt (v ⬝ᵥ v))⁻¹ * (v ⬝ᵥ v)) * (Real.sqrt (v ⬝ᵥ v))⁻¹
          = 1 - Real.cos (Real.sqrt (v ⬝ᵥ v)) := by
        generalize Real.cos (Real.sqrt (v ⬝ᵥ v)) = c
        field_simp; linear_combination (-1) * (1 - c) * hm
      rw [this, ← add_smul]; simp
  · rw [dmxm_eq, hT]; exact (C21_rotation v).1

/-- C21: trace of the matrix is `1 + 2 cos |v|`, which fixes the size of the rotation. -/
theorem C21_trace (v : Vec) : (dav2m v).trace = 1 + 2 * Real.cos (Real.sqrt (v ⬝ᵥ v)) := by
  by_cases h : v = 0
  · rw [dav2m_zero h, h]; simp [Matrix.trace, Fin.sum_univ_three]; norm_num
  · rw [dav2m_frameMat v h]
    have hu := unit_of_ne h
    generalize (Real.sqrt (v ⬝ᵥ v))⁻¹ • v = n at *
    simp [dotProduct, Fin.sum_univ_three] at hu
    simp [Matrix.trace, frameMat, Fin.sum_univ_three]
    linear_combination (1 - Real.cos (Real.sqrt (v ⬝ᵥ v))) * hu

example : (![0, 0, 1] : Vec) ⬝ᵥ ![0, 0, 1] = 1 := by simp

/-! ## C22 -/

/-- C22: axial vector → matrix → axial vector, for rotations of less than half a turn. -/
theorem C22_av_round_trip (v : Vec) (hv : Real.sqrt (v ⬝ᵥ v) < Real.pi) : dm2av (dav2m v) = v := by
  by_cases h : v = 0
  · rw [dav2m_zero h, h]
    funext i; fin_cases i <;> simp [dm2av]
  have hnn : 0 ≤ v ⬝ᵥ v := Finset.sum_nonneg fun i _ => mul_self_nonneg _
  have hne : Real.sqrt (v ⬝ᵥ v) ≠ 0 := by
    intro h0
    rw [Real.sqrt_eq_zero'] at h0
    exact h (dotProduct_self_eq_zero.1 (le_antisymm h0 hnn))
  have hu := unit_of_ne h
  have hvn : v = Real.sqrt (v ⬝ᵥ v) • ((Real.sqrt (v ⬝ᵥ v))⁻¹ • v) := by
    rw [smul_smul, mul_inv_cancel₀ hne, one_smul]
  have hpos : 0 < Real.sqrt (v ⬝ᵥ v) := lt_of_le_of_ne (Real.sqrt_nonneg _) (Ne.symm hne)
  rw [dav2m_frameMat v h]
  conv_rhs => rw [hvn]
  generalize (Real.sqrt (v ⬝ᵥ v))⁻¹ • v = n at *
  generalize Real.sqrt (v ⬝ᵥ v) = a at *
  have hs : 0 < Real.sin a := Real.sin_pos_of_pos_of_lt_pi hpos hv
  simp [dotProduct, Fin.sum_univ_three] at hu
  have e1 : frameMat n a 1 2 - frameMat n a 2 1 = 2 * Real.sin a * n 0 := by simp [frameMat]; ring
  have e2 : frameMat n a 2 0 - frameMat n a 0 2 = 2 * Real.sin a * n 1 := by simp [frameMat]; ring
  have e3 : frameMat n a 0 1 - frameMat n a 1 0 = 2 * Real.sin a * n 2 := by simp [frameMat]; ring
  have e4 : frameMat n a 0 0 + frameMat n a 1 1 + frameMat n a 2 2 - 1 = 2 * Real.cos a := by
    simp [frameMat]; linear_combination (1 - Real.cos a) * hu
  have e5 : Real.sqrt (2 * Real.sin a * n 0 * (2 * Real.sin a * n 0) + 2 * Real.sin a * n 1 * (2 * Real.sin a * n 1) +
      2 * Real.sin a * n 2 * (2 * Real.sin a * n 2)) = 2 * Real.sin a := by
    rw [Real.sqrt_eq_iff_mul_self_eq_of_pos (by positivity)]
    linear_combination -(4 * Real.sin a ^ 2) * hu
  unfold dm2av
  simp only [e1, e2, e3, e4, e5]
  rw [if_pos (by positivity : 2 * Real.sin a ≠ 0)]
  have e6 : atan2 (2 * Real.sin a / 2) (2 * Real.cos a / 2) = a := by
    rw [mul_div_cancel_left₀ _ two_ne_zero, mul_div_cancel_left₀ _ two_ne_zero]
    exact atan2_sin_cos (by linarith [Real.pi_pos]) hv.le
  rw [e6]
  funext i
  fin_cases i <;> simp <;> field_simp

/-- The algebra of a rotation matrix: with `a` the vector of its skew part, `|a|² = (3 - tr)(1 + tr)` and
    `a aᵀ = (1 + tr)(R + Rᵀ + (1 - tr))`. -/
private theorem skew_facts {R : Mat} (hR : IsRotation R) :
    let t := R 0 0 + R 1 1 + R 2 2
    let x := R 1 2 - R 2 1
    let y := R 2 0 - R 0 2
    let z := R 0 1 - R 1 0
    x * x = (1 + t) * (2 * R 0 0 + 1 - t) ∧ y * y = (1 + t) * (2 * R 1 1 + 1 - t) ∧
    z * z = (1 + t) * (2 * R 2 2 + 1 - t) ∧ x * y = (1 + t) * (R 0 1 + R 1 0) ∧
    x * z = (1 + t) * (R 0 2 + R 2 0) ∧ y * z = (1 + t) * (R 1 2 + R 2 1) := by
  obtain ⟨h00, h01, h02, h10, h11, h12, h20, h21, h22⟩ := rot_cof hR
  have r := rot_rows hR
  have c := rot_cols hR
  have r00 := r 0 0; have r11 := r 1 1; have r22 := r 2 2; have r01 := r 0 1; have r02 := r 0 2; have r12 := r 1 2
  have c00 := c 0 0; have c11 := c 1 1; have c22 := c 2 2; have c01 := c 0 1; have c02 := c 0 2; have c12 := c 1 2
  simp at r00 r11 r22 r01 r02 r12 c00 c11 c22 c01 c02 c12
  intro t x y z
  simp only [t, x, y, z]
  clear r c
  refine ⟨?_, ?_, ?_, ?_, ?_, ?_⟩
  · linear_combination r11 + r22 - c00 - 2 * h00
  · linear_combination r00 + r22 - c11 - 2 * h11
  · linear_combination r00 + r11 - c22 - 2 * h22
  · linear_combination -r01 - c01 - h01 - h10
  · linear_combination -r02 - c02 - h02 - h20
  · linear_combination -r12 - c12 - h12 - h21

/-- C22: matrix → axial vector → matrix, for every proper rotation that is not a half turn. -/
theorem C22_matrix_round_trip (R : Mat) (hR : IsRotation R) (ht : -1 < R.trace) : dav2m (dm2av R) = R := by
  obtain ⟨hxx, hyy, hzz, hxy, hxz, hyz⟩ := skew_facts hR
  have htr : R.trace = R 0 0 + R 1 1 + R 2 2 := by simp [Matrix.trace, Fin.sum_univ_three]
  rw [htr] at ht
  set t := R 0 0 + R 1 1 + R 2 2 with htdef
  set x := R 1 2 - R 2 1 with hx
  set y := R 2 0 - R 0 2 with hy
  set z := R 0 1 - R 1 0 with hz
  have hsum : x * x + y * y + z * z = (1 + t) * (3 - t) := by
    rw [hxx, hyy, hzz, htdef]; ring
  set s2 := Real.sqrt (x * x + y * y + z * z) with hs2
  have hss : s2 * s2 = (1 + t) * (3 - t) := by
    rw [hs2, Real.mul_self_sqrt (by nlinarith [mul_self_nonneg x, mul_self_nonneg y, mul_self_nonneg z])]; exact hsum
  by_cases hs0 : s2 = 0
  · -- no skew part: the identity
    have ht3 : t = 3 := by
      rw [hs0] at hss
      have : (1 + t) ≠ 0 := by linarith
      have h3 : 3 - t = 0 := by
        rcases mul_eq_zero.1 (hss.symm.trans (by ring : (0:ℝ) * 0 = 0)) with h | h
        · exact absurd h this
        · exact h
      linarith
    have hle : ∀ w : ℝ, 0 ≤ w * w := mul_self_nonneg
    have hsum0 : x * x + y * y + z * z = 0 := by rw [hsum, ht3]; ring
    have hx0 : x = 0 := mul_self_eq_zero.1 (by linarith [hle x, hle y, hle z])
    have hy0 : y = 0 := mul_self_eq_zero.1 (by linarith [hle x, hle y, hle z])
    have hz0 : z = 0 := mul_self_eq_zero.1 (by linarith [hle x, hle y, hle z])
    have hav : dm2av R = 0 := by
      unfold dm2av; simp only [← hx, ← hy, ← hz, ← hs2, hs0]
      funext i; fin_cases i <;> simp
    rw [hav, dav2m_zero rfl]
    rw [hx0, ht3] at hxx hxy hxz
    rw [hy0, ht3] at hyy hyz
    rw [hz0, ht3] at hzz
    ext i j
    fin_cases i <;> fin_cases j <;> simp [Matrix.one_apply] <;> linarith
  · have hspos : 0 < s2 := lt_of_le_of_ne (Real.sqrt_nonneg _) (Ne.symm hs0)
    have hunit : ((t - 1) / 2) ^ 2 + (s2 / 2) ^ 2 = 1 := by linear_combination hss / 4
    obtain ⟨hcos, hsin⟩ := cos_atan2_of_sq hunit
    set a := atan2 (s2 / 2) ((t - 1) / 2) with ha
    have ha0 : 0 ≤ a := atan2_nonneg (by positivity)
    have hane : a ≠ 0 := by
      intro h; rw [h, Real.sin_zero] at hsin; linarith
    have hapos : 0 < a := lt_of_le_of_ne ha0 (Ne.symm hane)
    have hav : dm2av R = ![x * (a / s2), y * (a / s2), z * (a / s2)] := by
      unfold dm2av; simp only [← hx, ← hy, ← hz, ← hs2, ← htdef, ← ha]
      rw [if_pos hs0]
    have hlen : Real.sqrt (x * (a / s2) * (x * (a / s2)) + y * (a / s2) * (y * (a / s2)) +
        z * (a / s2) * (z * (a / s2))) = a := by
      have : x * (a / s2) * (x * (a / s2)) + y * (a / s2) * (y * (a / s2)) + z * (a / s2) * (z * (a / s2))
          = (x * x + y * y + z * z) * (a / s2) ^ 2 := by ring
      rw [this, hsum, ← hss, div_pow]
      have : s2 * s2 * (a ^ 2 / s2 ^ 2) = a ^ 2 := by field_simp
      rw [this, Real.sqrt_sq ha0]
    have hquot : ∀ q : ℝ, q * (a / s2) / a = q / s2 := by intro q; field_simp
    have h1t : (1 + t) ≠ 0 := by linarith
    have h3t : (3 - t) ≠ 0 := by
      intro h; rw [h, mul_zero] at hss; exact hs0 (mul_self_eq_zero.1 hss)
    have key : ∀ p q m : ℝ, p * q = (1 + t) * m → p / s2 * (q / s2) * (1 - (t - 1) / 2) = m / 2 := by
      intro p q m hpq
      have : p / s2 * (q / s2) = p * q / (s2 * s2) := by field_simp
      rw [this, hpq, hss]; field_simp; ring
    have kxx := key x x _ hxx
    have kyy := key y y _ hyy
    have kzz := key z z _ hzz
    have kxy := key x y _ hxy
    have kxz := key x z _ hxz
    have kyz := key y z _ hyz
    have hsk : ∀ q : ℝ, q / s2 * (s2 / 2) = q / 2 := by intro q; field_simp
    rw [hav]
    ext i j
    unfold dav2m
    simp only [Matrix.cons_val_zero, Matrix.cons_val_one, Matrix.cons_val, hlen, hcos, hsin, if_pos hane, hquot, hsk]
    fin_cases i <;> fin_cases j <;> simp only [Fin.mk_zero, Fin.mk_one, Fin.reduceFinMk, Fin.zero_eta, Matrix.cons_val_zero, Matrix.cons_val_one, Matrix.cons_val]
    · rw [kxx]; ring
    · rw [kxy, hz]; ring
    · rw [kxz, hy]; ring
    · rw [kxy, hz]; ring
    · rw [kyy]; ring
    · rw [kyz, hx]; ring
    · rw [kxz, hy]; ring
    · rw [kyz, hx]; ring
    · rw [kzz]; ring

/-- C22: for a half turn the code cannot recover the axis: it returns the null vector. -/
theorem C22_half_turn (R : Mat) (hR : IsRotation R) (ht : R.trace = -1) : dm2av R = 0 := by
  obtain ⟨hxx, hyy, hzz, -, -, -⟩ := skew_facts hR
  have htr : R.trace = R 0 0 + R 1 1 + R 2 2 := by simp [Matrix.trace, Fin.sum_univ_three]
  rw [htr] at ht
  rw [ht] at hxx hyy hzz
  unfold dm2av
  simp only [hxx, hyy, hzz]
  funext i; fin_cases i <;> simp

example : ∃ R : Mat, IsRotation R ∧ R.trace = -1 :=
  ⟨!![-1, 0, 0; 0, -1, 0; 0, 0, 1], ⟨by ext i j; fin_cases i <;> fin_cases j <;> simp [Matrix.mul_apply, Fin.sum_univ_three],
    by rw [Matrix.det_fin_three]; simp⟩, by simp [Matrix.trace, Fin.sum_univ_three]⟩
example : IsRotation (1 : Mat) ∧ -1 < (1 : Mat).trace := ⟨IsRotation.one, by simp [Matrix.trace, Fin.sum_univ_three]; norm_num⟩
example : Real.sqrt ((![1, 0, 0] : Vec) ⬝ᵥ ![1, 0, 0]) < Real.pi := by simp; linarith [Real.pi_gt_three]

/-! ## C23 -/

private theorem eulerRotation_eq (c : Char) (a : ℝ) :
    eulerRotation c (Real.sin a) (Real.cos a) = (axisOf c).map fun n => frameMat n a := by
  have m : ∀ p q r : Char, (c = p ∨ c = q ∨ c = r) ↔ c ∈ [p, q, r] := by intro p q r; simp
  unfold eulerRotation axisOf
  simp only [m, identity3_eq]
  split
  · simp only [Option.map_some]; congr 1
    ext i j; fin_cases i <;> fin_cases j <;> simp [frameMat, ex]
  split
  · simp only [Option.map_some]; congr 1
    ext i j; fin_cases i <;> fin_cases j <;> simp [frameMat, ey]
  split
  · simp only [Option.map_some]; congr 1
    ext i j; fin_cases i <;> fin_cases j <;> simp [frameMat, ez]
  · rfl

private theorem axis_unit {c : Char} {n : Vec} (h : axisOf c = some n) : n ⬝ᵥ n = 1 := by
  unfold axisOf at h
  split at h
  · cases h; simp [ex]
  split at h
  · cases h; simp [ey]
  split at h
  · cases h; simp [ez]
  · cases h

private theorem eulerStep_lt (order : List Char) (p t s : ℝ) (l : Nat) (M : Mat) (n : Nat) (h : n < l) :
    eulerStep order p t s (l, M) n =
      match axisOf (order.getD n '\x00') with
      | some v => (l, frameMat v (if n = 0 then p else if n = 1 then t else s) * M)
      | none => (0, M) := by
  unfold eulerStep
  simp only [if_pos h, eulerRotation_eq]
  cases axisOf (order.getD n '\x00') with
  | none => simp [dmxm_eq, identity3_eq]
  | some v => simp [dmxm_eq]

private theorem eulerStep_ge (order : List Char) (p t s : ℝ) (l : Nat) (M : Mat) (n : Nat) (h : l ≤ n) :
    eulerStep order p t s (l, M) n = (l, M) := by
  unfold eulerStep; rw [if_neg (by simpa using h)]

/-- C23: `deuler` turns the frame successively about the axes named by the first three characters, the first
    character with the first angle first, stopping at the first character that names no axis. -/
theorem C23_deuler (order : List Char) (phi theta psi : ℝ) (w : Vec) :
    dmxv (deuler order phi theta psi) w = turnSequence (order.zip [phi, theta, psi]) w := by
  rw [dmxv_eq]
  unfold deuler
  rcases order with _ | ⟨a, _ | ⟨b, _ | ⟨c, rest⟩⟩⟩
  · simp [eulerStep_ge, turnSequence, identity3_eq]
  · simp only [List.length_singleton, List.foldl_cons, List.foldl_nil]
    rw [if_neg (by norm_num), eulerStep_lt _ _ _ _ _ _ 0 (by norm_num)]
    simp only [List.getD_cons_zero, List.zip_cons_cons, turnSequence]
    cases h : axisOf a with
    | none => simp [eulerStep_ge, identity3_eq]
    | some v => simp [eulerStep_ge, identity3_eq, turnSequence, frameMat_mulVec]
  · simp only [List.length_cons, List.length_nil, List.foldl_cons, List.foldl_nil]
    rw [if_neg (by norm_num), eulerStep_lt _ _ _ _ _ _ 0 (by norm_num)]
    simp only [List.getD_cons_zero, List.zip_cons_cons, turnSequence]
    cases h : axisOf a with
    | none => simp [eulerStep_ge, identity3_eq]
    | some v =>
      simp only
      rw [eulerStep_lt _ _ _ _ _ _ 1 (by norm_num)]
      simp only [List.getD_cons_zero, List.getD_cons_succ]
      cases h : axisOf b with
      | none => simp [eulerStep_ge, identity3_eq, frameMat_mulVec]
      | some v2 => simp [eulerStep_ge, identity3_eq, turnSequence, frameMat_mulVec, ← Matrix.mulVec_mulVec]
  · have hl : (if (a :: b :: c :: rest).length > 3 then 3 else (a :: b :: c :: rest).length) = 3 := by
      simp only [List.length_cons]; split <;> omega
    simp only [hl, List.foldl_cons, List.foldl_nil]
    rw [eulerStep_lt _ _ _ _ _ _ 0 (by norm_num)]
    simp only [List.getD_cons_zero, List.zip_cons_cons, turnSequence]
    cases h : axisOf a with
    | none => simp [eulerStep_ge, identity3_eq]
    | some v =>
      simp only
      rw [eulerStep_lt _ _ _ _ _ _ 1 (by norm_num)]
      simp only [List.getD_cons_zero, List.getD_cons_succ]
      cases h : axisOf b with
      | none => simp [eulerStep_ge, identity3_eq, frameMat_mulVec]
      | some v2 =>
        simp only
        rw [eulerStep_lt _ _ _ _ _ _ 2 (by norm_num)]
        simp only [List.getD_cons_zero, List.getD_cons_succ]
        cases h : axisOf c with
        | none => simp [identity3_eq, frameMat_mulVec, ← Matrix.mulVec_mulVec]
        | some v3 => simp [identity3_eq, turnSequence, frameMat_mulVec, ← Matrix.mulVec_mulVec]

private theorem eulerStep_rotation (order : List Char) (p t s : ℝ) (st : Nat × Mat) (n : Nat) (h : IsRotation st.2) :
    IsRotation (eulerStep order p t s st n).2 := by
  obtain ⟨l, M⟩ := st
  by_cases hn : n < l
  · rw [eulerStep_lt _ _ _ _ _ _ _ hn]
    cases ha : axisOf (order.getD n '\x00') with
    | none => exact h
    | some v => exact (frameMat_rotation v (axis_unit ha) _).mul h
  · rw [eulerStep_ge _ _ _ _ _ _ _ (not_lt.1 hn)]; exact h

/-- C23: the result is a proper rotation for every string and every set of angles. -/
theorem C23_rotation (order : List Char) (phi theta psi : ℝ) : IsRotation (deuler order phi theta psi) := by
  unfold deuler
  simp only [List.foldl_cons, List.foldl_nil]
  exact eulerStep_rotation _ _ _ _ _ _ (eulerStep_rotation _ _ _ _ _ _ (eulerStep_rotation _ _ _ _ _ _
    (identity3_eq ▸ IsRotation.one)))

/-- C23: all angles zero, or no recognised axis in front, gives the identity. -/
theorem C23_identity (order : List Char) (phi theta psi : ℝ)
    (h : (phi = 0 ∧ theta = 0 ∧ psi = 0) ∨ order.head?.bind axisOf = none) : deuler order phi theta psi = 1 := by
  have t0 : ∀ n w, turnFrame n 0 w = w := by intro n w; simp [turnFrame]
  apply Matrix.ext_of_mulVec_single
  intro i
  rw [← dmxv_eq, C23_deuler, Matrix.one_mulVec]
  rcases h with ⟨rfl, rfl, rfl⟩ | h
  · have : ∀ (l : List (Char × ℝ)) w, (∀ p ∈ l, p.2 = 0) → turnSequence l w = w := by
      intro l
      induction l with
      | nil => intro w _; rfl
      | cons p l ih =>
        intro w hp
        obtain ⟨c, a⟩ := p
        have ha : a = 0 := hp (c, a) (by simp)
        subst ha
        unfold turnSequence
        cases axisOf c with
        | none => rfl
        | some n => simp only [t0]; exact ih w fun p hp' => hp p (by simp [hp'])
    apply this
    rintro ⟨c, a⟩ hp
    have := (List.of_mem_zip hp).2
    simpa using this
  · cases order with
    | nil => rfl
    | cons c rest =>
      simp at h
      simp [turnSequence, h]

/-- C23: `dav2m` along a coordinate axis agrees with the one-letter `deuler`. -/
theorem C23_single_axis (a : ℝ) : deuler ['X'] a 0 0 = dav2m (a • ex) ∧ deuler ['Y'] a 0 0 = dav2m (a • ey) ∧
    deuler ['Z'] a 0 0 = dav2m (a • ez) := by
  refine ⟨?_, ?_, ?_⟩ <;>
  · apply Matrix.ext_of_mulVec_single
    intro i
    rw [← dmxv_eq, ← dmxv_eq, C23_deuler, C21_along_axis _ (by simp [ex, ey, ez])]
    simp [turnSequence, axisOf]

example : (['Q', 'X'] : List Char).head?.bind axisOf = none := by simp [axisOf]
example : ∃ w, turnSequence (['Z', 'X', '3'].zip [1, 2, 3]) w ≠ w := by
  refine ⟨ex, fun h => ?_⟩
  have h2 := congrFun h 2
  simp [turnSequence, axisOf, turnFrame, ex, ez, cross_apply] at h2
  have s1 : 0 < Real.sin 1 := Real.sin_pos_of_pos_of_lt_pi one_pos (by linarith [Real.pi_gt_three])
  have s2 : 0 < Real.sin 2 := Real.sin_pos_of_pos_of_lt_pi two_pos (by linarith [Real.pi_gt_three])
  nlinarith [mul_pos s1 s2]

end Sla.Props
