import Verif.Lemmas.FpPolar
import Verif.Lemmas.FpErr
import Verif.Lemmas.FpErr64
import Verif.Spec.FpLib
import Verif.Props.Spherical
import Verif.Props.FpSeparation

/-
C123: spherical coordinates and rates of a position and velocity, in double and in single precision.
-/
namespace Sla.Props
open Sla.Fp Sla.Spec

private theorem atan2_flip {y x : ℝ} (hy : 0 < y) : atan2 (-y) x = -atan2 y x := by
  unfold atan2
  have : (⟨x, -y⟩ : ℂ) = (starRingEnd ℂ) ⟨x, y⟩ := rfl
  rw [this, Complex.arg_conj, if_neg]
  intro h
  rw [Complex.arg_eq_pi_iff] at h
  simp at h
  linarith [h.2]

private theorem lat_near {z r r' q k : ℝ} (hr : 0 < r) (hq : 0 < q) (h2 : r * r + z * z = q * q) (rq : r ≤ q) (k0 : 0 ≤ k) (k1 : k < 1)
    (h : |r' - r| ≤ k * r) : |atan2 z r' - atan2 z r| ≤ Real.pi / 2 * k := by
  have main : ∀ z : ℝ, 0 ≤ z → r * r + z * z = q * q → |atan2 z r' - atan2 z r| ≤ Real.pi / 2 * k := by
    intro z hz h2
    have hk : k * r ≤ k * q := mul_le_mul_of_nonneg_left rq k0
    have h3 := fp_atan2_near (s := z) (s' := z) (c := r) (c' := r') (L := q) (d := k * q) hz hz hq (by linarith) (by positivity)
      (by nlinarith) (by
        rw [sub_self, zero_pow two_ne_zero, zero_add]
        exact sq_le_sq' (by linarith [(abs_le.1 h).1]) (by linarith [(abs_le.1 h).2]))
    rw [← mul_assoc] at h3
    exact le_of_mul_le_mul_right h3 hq
  rcases le_or_gt 0 z with hz | hz
  · exact main z hz h2
  · have h3 := main (-z) (by linarith) (by linarith)
    have e : ∀ w, atan2 z w = -atan2 (-z) w := fun w => by
      have := atan2_flip (y := -z) (x := w) (by linarith)
      rwa [neg_neg] at this
    rwa [e, e, neg_sub_neg, abs_sub_comm]

private theorem ne_zero_of_near {a b k : ℝ} (hb : 0 < b) (k1 : k < 1) (h : |a - b| ≤ k * b) : a ≠ 0 := by
  rintro rfl
  rw [zero_sub, abs_neg, abs_of_pos hb] at h
  nlinarith

/-- From the errors of the intermediate results to those of the coordinates. -/
private theorem polar_near {D : ℝ → ℝ} {at2 : ℝ → ℝ → ℝ} {ε : ℝ} (ha : Spec.Atan2Near at2 ε) (c : VectorPV) {r q V k1 k2 kr kq kl kb kd : ℝ}
    (hr : 0 < r) (rq : r ≤ q) (er : Real.sqrt (c.pos 0 * c.pos 0 + c.pos 1 * c.pos 1) = r)
    (h1 : c.pos 0 * c.pos 0 + c.pos 1 * c.pos 1 = r * r)
    (h2 : c.pos 0 * c.pos 0 + c.pos 1 * c.pos 1 + c.pos 2 * c.pos 2 = q * q)
    (l1 : k1 < 1) (l2 : k2 < 1) (lr : kr < 1) (lq : kq < 1) (kr0 : 0 ≤ kr)
    (near : |D (D (c.pos 0 * c.pos 0) + D (c.pos 1 * c.pos 1)) - r * r| ≤ k1 * (r * r) ∧
    |D (D (D (c.pos 0 * c.pos 0) + D (c.pos 1 * c.pos 1)) + D (c.pos 2 * c.pos 2)) - q * q| ≤ k2 * (q * q) ∧
    |D (Real.sqrt (D (D (c.pos 0 * c.pos 0) + D (c.pos 1 * c.pos 1)))) - r| ≤ kr * r ∧
    |D (Real.sqrt (D (D (D (c.pos 0 * c.pos 0) + D (c.pos 1 * c.pos 1)) + D (c.pos 2 * c.pos 2)))) - q| ≤ kq * q ∧
    |D (D (D (c.pos 0 * c.vel 1) - D (c.pos 1 * c.vel 0)) / D (D (c.pos 0 * c.pos 0) + D (c.pos 1 * c.pos 1))) -
      (c.pos 0 * c.vel 1 - c.pos 1 * c.vel 0) / (r * r)| ≤ kl * (V / r) ∧
    |D (D (D (c.vel 2 * D (D (c.pos 0 * c.pos 0) + D (c.pos 1 * c.pos 1))) - D (c.pos 2 * D (D (c.pos 0 * c.vel 0) + D (c.pos 1 * c.vel 1)))) /
      D (D (D (D (c.pos 0 * c.pos 0) + D (c.pos 1 * c.pos 1)) + D (c.pos 2 * c.pos 2)) * D (Real.sqrt (D (D (c.pos 0 * c.pos 0) + D (c.pos 1 * c.pos 1)))))) -
      (c.vel 2 * (r * r) - c.pos 2 * (c.pos 0 * c.vel 0 + c.pos 1 * c.vel 1)) / (q * q * r)| ≤ kb * (V / q) ∧
    |D (D (D (D (c.pos 0 * c.vel 0) + D (c.pos 1 * c.vel 1)) + D (c.pos 2 * c.vel 2)) /
      D (Real.sqrt (D (D (D (c.pos 0 * c.pos 0) + D (c.pos 1 * c.pos 1)) + D (c.pos 2 * c.pos 2))))) -
      (c.pos 0 * c.vel 0 + c.pos 1 * c.vel 1 + c.pos 2 * c.vel 2) / q| ≤ kd * V) :
    (c.pos 1 ≠ 0 ∨ 0 ≤ c.pos 0 → |(Fp.dc62s D at2 c).long - (dc62s c).long| ≤ ε) ∧
    |(Fp.dc62s D at2 c).lat - (dc62s c).lat| ≤ ε + Real.pi / 2 * kr ∧
    |(Fp.dc62s D at2 c).dist - (dc62s c).dist| ≤ kq * q ∧
    |(Fp.dc62s D at2 c).dlong - (dc62s c).dlong| ≤ kl * (V / r) ∧
    |(Fp.dc62s D at2 c).dlat - (dc62s c).dlat| ≤ kb * (V / q) ∧
    |(Fp.dc62s D at2 c).ddist - (dc62s c).ddist| ≤ kd * V := by
  have hq : 0 < q := hr.trans_le rq
  obtain ⟨n1, n2, n3, n4, n5, n6, n7⟩ := near
  have a1 := ne_zero_of_near (mul_pos hr hr) l1 n1
  have a2 := ne_zero_of_near (mul_pos hq hq) l2 n2
  have a4 := ne_zero_of_near hq lq n4
  have r' : 0 ≤ D (Real.sqrt (D (D (c.pos 0 * c.pos 0) + D (c.pos 1 * c.pos 1)))) := by nlinarith [(abs_le.1 n3).1]
  have hz : r * r + c.pos 2 * c.pos 2 = q * q := by rw [← h1]; exact h2
  have hl := lat_near hr hq hz rq kr0 lr n3
  rw [dc62s_off_axis c (by rw [h1]; exact (mul_pos hr hr).ne')]
  unfold Fp.dc62s
  simp only [a2, if_false, ne_eq, a1, a4, not_false_eq_true, if_true]
  rw [er, h2, h1, Real.sqrt_mul_self hq.le]
  refine ⟨fun h => ha.1 _ _ h, ?_, n4, n5, n6, n7⟩
  have := abs_sub_le (at2 (c.pos 2) (D (Real.sqrt (D (D (c.pos 0 * c.pos 0) + D (c.pos 1 * c.pos 1))))))
    (atan2 (c.pos 2) (D (Real.sqrt (D (D (c.pos 0 * c.pos 0) + D (c.pos 1 * c.pos 1)))))) (atan2 (c.pos 2) r)
  have h5 := ha.1 (c.pos 2) _ (Or.inr r')
  linarith

private theorem frame (p : Vec) : (p 0 * p 0 + p 1 * p 1 = Real.sqrt (p 0 * p 0 + p 1 * p 1) * Real.sqrt (p 0 * p 0 + p 1 * p 1)) ∧
    (p 0 * p 0 + p 1 * p 1 + p 2 * p 2 = len p * len p) ∧ Real.sqrt (p 0 * p 0 + p 1 * p 1) ≤ len p := by
  have p0 := mul_self_nonneg (p 0); have p1 := mul_self_nonneg (p 1); have p2 := mul_self_nonneg (p 2)
  rw [len_eq]
  exact ⟨(Real.mul_self_sqrt (by linarith)).symm, (Real.mul_self_sqrt (by linarith)).symm, Real.sqrt_le_sqrt (by linarith)⟩

/-- C123: off the axis `dc62s` in double precision gives the longitude to the error of `atan2`, the latitude to that error plus
    5.7e-16 rad, the distance to 6.1e-16 of itself, and the rates to a few 1e-15 of the speed over the distance in question.
    On the negative x axis the longitude may be `π` or `-π`, and nothing is said of it. -/
theorem C123_dc62s (R : Rounding binary64) (at2 : ℝ → ℝ → ℝ) {ε : ℝ} (ha : Spec.Atan2Near at2 ε) (c : VectorPV) {V : ℝ}
    (hr : 1e-60 ≤ Real.sqrt (c.pos 0 * c.pos 0 + c.pos 1 * c.pos 1)) (hq : len c.pos ≤ 1e60) (hV : 1e-60 ≤ V) (hv : ∀ i, |c.vel i| ≤ V) :
    (c.pos 1 ≠ 0 ∨ 0 ≤ c.pos 0 → |(Fp.dc62s R at2 c).long - (dc62s c).long| ≤ ε) ∧
    |(Fp.dc62s R at2 c).lat - (dc62s c).lat| ≤ ε + 5.7e-16 ∧
    |(Fp.dc62s R at2 c).dist - (dc62s c).dist| ≤ 6.1e-16 * len c.pos ∧
    |(Fp.dc62s R at2 c).dlong - (dc62s c).dlong| ≤ 1.21e-15 * (V / Real.sqrt (c.pos 0 * c.pos 0 + c.pos 1 * c.pos 1)) ∧
    |(Fp.dc62s R at2 c).dlat - (dc62s c).dlat| ≤ 4.72e-15 * (V / len c.pos) ∧
    |(Fp.dc62s R at2 c).ddist - (dc62s c).ddist| ≤ 3.15e-15 * V := by
  obtain ⟨f1, f2, f3⟩ := frame c.pos
  have r0 : 0 < Real.sqrt (c.pos 0 * c.pos 0 + c.pos 1 * c.pos 1) := lt_of_lt_of_le (by norm_num) hr
  have near := dc62s_near_d R.dbl.prec f1 f2 hr f3 hq hV (hv 0) (hv 1) (hv 2)
  obtain ⟨b1, b2, b3, b4, b5, b6⟩ := polar_near ha c r0 f3 rfl f1 f2 (by norm_num) (by norm_num) (by norm_num) (by norm_num) (by norm_num) near
  refine ⟨b1, b2.trans ?_, b3.trans ?_, b4, b5, b6⟩
  · have := Real.pi_lt_d4
    norm_num at this ⊢; linarith
  · exact mul_le_mul_of_nonneg_right (by norm_num) (r0.le.trans f3)

/-- C123: the same for `cc62s` in single precision. -/
theorem C123_cc62s (R : Rounding binary32) (at2 : ℝ → ℝ → ℝ) {ε : ℝ} (ha : Spec.Atan2Near at2 ε) (c : VectorPV) {V : ℝ}
    (hr : 1e-9 ≤ Real.sqrt (c.pos 0 * c.pos 0 + c.pos 1 * c.pos 1)) (hq : len c.pos ≤ 1e12) (hV : 1e-9 ≤ V) (hv : ∀ i, |c.vel i| ≤ V) :
    (c.pos 1 ≠ 0 ∨ 0 ≤ c.pos 0 → |(Fp.dc62s R at2 c).long - (dc62s c).long| ≤ ε) ∧
    |(Fp.dc62s R at2 c).lat - (dc62s c).lat| ≤ ε + 2.9e-7 ∧
    |(Fp.dc62s R at2 c).dist - (dc62s c).dist| ≤ 3.1e-7 * len c.pos ∧
    |(Fp.dc62s R at2 c).dlong - (dc62s c).dlong| ≤ 6.05e-7 * (V / Real.sqrt (c.pos 0 * c.pos 0 + c.pos 1 * c.pos 1)) ∧
    |(Fp.dc62s R at2 c).dlat - (dc62s c).dlat| ≤ 2.38e-6 * (V / len c.pos) ∧
    |(Fp.dc62s R at2 c).ddist - (dc62s c).ddist| ≤ 1.59e-6 * V := by
  obtain ⟨f1, f2, f3⟩ := frame c.pos
  have r0 : 0 < Real.sqrt (c.pos 0 * c.pos 0 + c.pos 1 * c.pos 1) := lt_of_lt_of_le (by norm_num) hr
  have near := dc62s_near_s R.single.prec f1 f2 hr f3 hq hV (hv 0) (hv 1) (hv 2)
  obtain ⟨b1, b2, b3, b4, b5, b6⟩ := polar_near ha c r0 f3 rfl f1 f2 (by norm_num) (by norm_num) (by norm_num) (by norm_num) (by norm_num) near
  refine ⟨b1, b2.trans ?_, b3.trans ?_, b4, b5, b6⟩
  · have := Real.pi_lt_d4
    norm_num at this ⊢; linarith
  · exact mul_le_mul_of_nonneg_right (by norm_num) (r0.le.trans f3)

/-- C123: on the axis, in either precision, the longitude and both angular rates are exactly zero, and the latitude is what `atan2` gives for
    the pole, as long as the square of `z` does not underflow. -/
theorem C123_axis {F : Fmt} (R : Rounding F) (at2 : ℝ → ℝ → ℝ) (z : ℝ) (v : Vec) (hz : R (z * z) ≠ 0) :
    (Fp.dc62s R at2 ⟨![0, 0, z], v⟩).long = 0 ∧ (Fp.dc62s R at2 ⟨![0, 0, z], v⟩).lat = at2 z 0 ∧
    (Fp.dc62s R at2 ⟨![0, 0, z], v⟩).dlong = 0 ∧ (Fp.dc62s R at2 ⟨![0, 0, z], v⟩).dlat = 0 := by
  have z0 : z ≠ 0 := by rintro rfl; rw [mul_zero, R.zero] at hz; exact hz rfl
  unfold Fp.dc62s
  simp [R.zero, R.eq_self (R.rep _), hz, z0]

/-- C123: a position whose squares underflow, such as the null vector, is replaced by the velocity. -/
theorem C123_null (R : ℝ → ℝ) (at2 : ℝ → ℝ → ℝ) (p v : Vec) (h : R (R (R (p 0 * p 0) + R (p 1 * p 1)) + R (p 2 * p 2)) = 0) :
    Fp.dc62s R at2 ⟨p, v⟩ = Fp.dc62s R at2 ⟨v, v⟩ := by
  unfold Fp.dc62s
  simp only [h, if_true, ite_self]

private theorem square_underflow {F : Fmt} (R : Rounding F) {x : ℝ} {k : ℤ} (hk : 2 * k + 2 ≤ F.emin) (hx : |x| ≤ 2 ^ k) : R (x * x) = 0 := by
  have h1 : |x * x| ≤ 2 ^ (k + k) := by
    rw [abs_mul, zpow_split]
    exact mul_le_mul hx hx (abs_nonneg _) (two_zpow_pos _).le
  have h2 := R.nearest (x * x) 0 rep_zero
  rw [sub_zero] at h2
  have h3 := abs_sub_abs_le_abs_sub (R (x * x)) (x * x)
  rw [abs_sub_comm] at h3
  obtain ⟨m, e, -, he, hme⟩ := R.rep (x * x)
  by_contra hne
  have hm0 : m ≠ 0 := by rintro rfl; simp at hme; exact hne hme
  have hm1 : (1 : ℝ) ≤ |(m : ℝ)| := by
    rw [← Int.cast_abs]; exact_mod_cast Int.one_le_abs hm0
  have h5 : (2 : ℝ) ^ (2 + (k + k)) ≤ 2 ^ e := two_zpow_le (by omega)
  rw [zpow_split] at h5
  have h6 : |R (x * x)| = |(m : ℝ)| * 2 ^ e := by rw [hme, abs_mul, abs_of_pos (two_zpow_pos e)]
  have h7 := two_zpow_pos (k + k)
  have h8 := mul_le_mul_of_nonneg_right hm1 (two_zpow_pos e).le
  norm_num at h5
  linarith

/-- C123: without a lower bound on the position the longitude is wrong: a position on the positive x axis at 2^-600 with a velocity along y is
    given the longitude of the y axis.  -/
theorem C123_underflow (R : Rounding binary64) (at2 : ℝ → ℝ → ℝ) {ε : ℝ} (ha : Spec.Atan2Near at2 ε) :
    |(Fp.dc62s R at2 ⟨![2 ^ (-600 : ℤ), 0, 0], ![0, 1, 0]⟩).long - Real.pi / 2| ≤ ε ∧
      (dc62s ⟨![2 ^ (-600 : ℤ), 0, 0], ![0, 1, 0]⟩).long = 0 := by
  have hx : R ((2 : ℝ) ^ (-600 : ℤ) * 2 ^ (-600 : ℤ)) = 0 :=
    square_underflow R (k := -600) (by norm_num [binary64]) (by rw [abs_of_pos (two_zpow_pos _)])
  have r1 : R 1 = 1 := by
    have := R.eq_self (rep_int (F := binary64) (n := 1) (by norm_num [binary64]) (by norm_num [binary64]))
    simpa using this
  constructor
  · rw [C123_null R at2 _ _ (by simp only [Matrix.cons_val_zero, Matrix.cons_val_one, Matrix.cons_val, hx, mul_zero, R.zero, add_zero])]
    have e : (Fp.dc62s R at2 ⟨![0, 1, 0], ![0, 1, 0]⟩).long = at2 1 0 := by
      unfold Fp.dc62s
      simp [R.zero, r1]
    have h := ha.1 1 0 (Or.inl one_ne_zero)
    have e2 : atan2 1 0 = Real.pi / 2 := by
      unfold atan2
      exact Complex.arg_I
    rw [e2] at h
    rw [e]; exact h
  · rw [dc62s_off_axis _ (by
      simp only [Matrix.cons_val_zero, Matrix.cons_val_one, mul_zero, add_zero]
      exact (mul_pos (two_zpow_pos _) (two_zpow_pos _)).ne')]
    simp only [Matrix.cons_val_zero, Matrix.cons_val_one]
    exact atan2_zero_of_nonneg (two_zpow_pos _).le

example : let c : VectorPV := ⟨![3, 4, 12], ![1, -1, 1]⟩
    1e-9 ≤ Real.sqrt (c.pos 0 * c.pos 0 + c.pos 1 * c.pos 1) ∧ len c.pos ≤ 1e12 ∧ (∀ i, |c.vel i| ≤ 1) ∧ (c.pos 1 ≠ 0 ∨ 0 ≤ c.pos 0) := by
  refine ⟨?_, ?_, ?_, Or.inr (by simp)⟩
  · simp only [Matrix.cons_val_zero, Matrix.cons_val_one]
    rw [show (3 * 3 + 4 * 4 : ℝ) = 5 * 5 by norm_num, Real.sqrt_mul_self (by norm_num)]; norm_num
  · rw [len_eq]
    simp only [Matrix.cons_val_zero, Matrix.cons_val_one, Matrix.cons_val]
    rw [show (3 * 3 + 4 * 4 + 12 * 12 : ℝ) = 13 * 13 by norm_num, Real.sqrt_mul_self (by norm_num)]; norm_num
  · intro i; fin_cases i <;> simp

/-- A library that is exact. -/
example : Spec.Atan2Near atan2 0 := by
  refine ⟨fun y x _ => by simp, fun x hx => Or.inl ?_⟩
  have : atan2 0 x = Real.pi := by unfold atan2; exact Complex.arg_ofReal_of_neg hx
  rw [this]; simp

example (R : Rounding binary64) : R ((2 : ℝ) * 2) ≠ 0 := by
  have := R.eq_self (rep_int (F := binary64) (n := 4) (by norm_num [binary64]) (by norm_num [binary64]))
  norm_num at this ⊢
  rw [this]; norm_num

end Sla.Props
