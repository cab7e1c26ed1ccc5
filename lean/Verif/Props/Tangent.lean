import Verif.Model.Tangent
import Verif.Props.HourAngle

/-
C34 tangent plane, spherical; C35 tangent plane, vectors; C36 tangent point from plane coordinates.
-/
namespace Sla.Props
open Sla Sla.Spec Real Matrix

/-- The point of the plane touching the unit sphere at `t`, `xi` to the east and `eta` to the north of `t`. -/
noncomputable def planePoint (t : Spherical) (xi eta : ℝ) : Vec :=
  direction t.a t.b + xi • east t.a + eta • north t.a t.b

theorem dot_tangent (v : Vec) (t : Spherical) :
    v ⬝ᵥ direction t.a t.b = v 0 * (cos t.a * cos t.b) + v 1 * (sin t.a * cos t.b) + v 2 * sin t.b := by
  rw [direction_eq]; simp [dotProduct, Fin.sum_univ_three]

theorem dot_east (v : Vec) (t : Spherical) : v ⬝ᵥ east t.a = -(v 0 * sin t.a) + v 1 * cos t.a := by
  rw [east_eq]; simp [dotProduct, Fin.sum_univ_three]

theorem dot_north (v : Vec) (t : Spherical) :
    v ⬝ᵥ north t.a t.b = -(v 0 * (cos t.a * sin t.b)) - v 1 * (sin t.a * sin t.b) + v 2 * cos t.b := by
  rw [north_eq]; simp [dotProduct, Fin.sum_univ_three]; ring

theorem planePoint_eq (t : Spherical) (xi eta : ℝ) : planePoint t xi eta =
    ![cos t.a * cos t.b - xi * sin t.a - eta * (cos t.a * sin t.b),
      sin t.a * cos t.b + xi * cos t.a - eta * (sin t.a * sin t.b), sin t.b + eta * cos t.b] := by
  funext i
  fin_cases i <;> simp [planePoint, direction_eq, east_eq, north_eq] <;> ring

/-- The direction, east and north form an orthonormal frame. -/
theorem frame_decomp (v : Vec) (t : Spherical) :
    v = (v ⬝ᵥ direction t.a t.b) • direction t.a t.b + (v ⬝ᵥ east t.a) • east t.a +
      (v ⬝ᵥ north t.a t.b) • north t.a t.b := by
  have h1 := sin_sq_add_cos_sq t.a
  have h2 := sin_sq_add_cos_sq t.b
  rw [dot_tangent, dot_east, dot_north, direction_eq, east_eq, north_eq]
  funext i
  fin_cases i <;> simp <;> grind

theorem ds2tp_eq (p t : Spherical) :
    ds2tp p t = ((tppClassify (direction p.a p.b ⬝ᵥ direction t.a t.b)).1,
      (direction p.a p.b ⬝ᵥ east t.a) / (tppClassify (direction p.a p.b ⬝ᵥ direction t.a t.b)).2,
      (direction p.a p.b ⬝ᵥ north t.a t.b) / (tppClassify (direction p.a p.b ⬝ᵥ direction t.a t.b)).2) := by
  have e1 : direction p.a p.b ⬝ᵥ direction t.a t.b =
      sin p.b * sin t.b + cos p.b * cos t.b * cos (p.a - t.a) := by
    rw [dot_tangent, direction_eq, cos_sub]; simp; ring
  have e2 : direction p.a p.b ⬝ᵥ east t.a = cos p.b * sin (p.a - t.a) := by
    rw [dot_east, direction_eq, sin_sub]; simp; ring
  have e3 : direction p.a p.b ⬝ᵥ north t.a t.b = sin p.b * cos t.b - cos p.b * sin t.b * cos (p.a - t.a) := by
    rw [dot_north, direction_eq, cos_sub]; simp; ring
  rw [e1, e2, e3]; rfl

/-- `ds2tp` classifies the star by the cosine of its angular distance from the tangent point. -/
theorem C34_status (p t : Spherical) :
    ((ds2tp p t).1 = .ok ↔ 1e-6 < direction p.a p.b ⬝ᵥ direction t.a t.b) ∧
    ((ds2tp p t).1 = .tooFar ↔ 0 ≤ direction p.a p.b ⬝ᵥ direction t.a t.b ∧
      direction p.a p.b ⬝ᵥ direction t.a t.b ≤ 1e-6) ∧
    ((ds2tp p t).1 = .astarOnTp ↔ -1e-6 < direction p.a p.b ⬝ᵥ direction t.a t.b ∧
      direction p.a p.b ⬝ᵥ direction t.a t.b < 0) ∧
    ((ds2tp p t).1 = .astarTooFar ↔ direction p.a p.b ⬝ᵥ direction t.a t.b ≤ -1e-6) := by
  rw [ds2tp_eq]
  generalize direction p.a p.b ⬝ᵥ direction t.a t.b = c
  show (_ = _ ↔ _) ∧ _
  simp only
  unfold tppClassify
  split_ifs with h1 h2 h3 <;> simp <;> norm_num at * <;>
    refine ⟨?_, ?_, ?_, ?_⟩ <;> first | linarith | (intros; linarith) | (constructor <;> linarith)

/-- Away from the plane through the centre, `ds2tp` is the projection from the centre: the star is on the ray
    through the centre and the point of the tangent plane with the coordinates returned, ahead of the centre if the
    status is OK and behind it otherwise. -/
theorem C34_ds2tp (p t : Spherical) (h : (ds2tp p t).1 = .ok ∨ (ds2tp p t).1 = .astarTooFar) :
    direction p.a p.b = (direction p.a p.b ⬝ᵥ direction t.a t.b) • planePoint t (ds2tp p t).2.1 (ds2tp p t).2.2 := by
  have hs := C34_status p t
  have hc : direction p.a p.b ⬝ᵥ direction t.a t.b ≠ 0 ∧
      (tppClassify (direction p.a p.b ⬝ᵥ direction t.a t.b)).2 = direction p.a p.b ⬝ᵥ direction t.a t.b := by
    rcases h with h | h
    · have := hs.1.1 h
      refine ⟨by intro e; rw [e] at this; norm_num at this, ?_⟩
      unfold tppClassify; rw [if_pos this]
    · have := hs.2.2.2.1 h
      norm_num at this
      refine ⟨by intro e; rw [e] at this; norm_num at this, ?_⟩
      unfold tppClassify
      rw [if_neg (by norm_num; linarith), if_neg (by norm_num; linarith), if_neg (by norm_num; linarith)]
  rw [ds2tp_eq]
  simp only [hc.2]
  conv_lhs => rw [frame_decomp (direction p.a p.b) t]
  generalize direction p.a p.b ⬝ᵥ direction t.a t.b = c at hc
  unfold planePoint
  rw [smul_add, smul_add, smul_smul, smul_smul, mul_div_cancel₀ _ hc.1, mul_div_cancel₀ _ hc.1]

/-- In the two intermediate cases the coordinates are those for a distance of one millionth. -/
theorem C34_ds2tp_clamped (p t : Spherical) (d : ℝ)
    (h : (ds2tp p t).1 = .tooFar ∧ d = 1e-6 ∨ (ds2tp p t).1 = .astarOnTp ∧ d = -1e-6) :
    (ds2tp p t).2 = ((direction p.a p.b ⬝ᵥ east t.a) / d, (direction p.a p.b ⬝ᵥ north t.a t.b) / d) := by
  have hs := C34_status p t
  have : (tppClassify (direction p.a p.b ⬝ᵥ direction t.a t.b)).2 = d := by
    rcases h with ⟨h, rfl⟩ | ⟨h, rfl⟩
    · have := hs.2.1.1 h
      unfold tppClassify
      rw [if_neg (not_lt.2 this.2), if_pos this.1]
    · have := hs.2.2.1.1 h
      unfold tppClassify
      rw [if_neg (by norm_num; linarith), if_neg (not_le.2 this.2), if_pos this.1]
  rw [ds2tp_eq, this]

theorem dranrm_cos (a : ℝ) : cos (dranrm a) = cos a :=
  SameAngle.cos (C15_dranrm a).2.2

theorem dranrm_sin (a : ℝ) : sin (dranrm a) = sin a :=
  SameAngle.sin (C15_dranrm a).2.2

/-- `dtp2s` gives the direction of the point of the tangent plane, in the documented ranges. -/
theorem C34_dtp2s (xi eta : ℝ) (t : Spherical) :
    sqrt (1 + xi ^ 2 + eta ^ 2) • direction (dtp2s xi eta t).a (dtp2s xi eta t).b = planePoint t xi eta ∧
    0 ≤ (dtp2s xi eta t).a ∧ (dtp2s xi eta t).a < 2 * π ∧ |(dtp2s xi eta t).b| ≤ π / 2 := by
  obtain ⟨r1, r2, -⟩ := C15_dranrm (atan2 xi (cos t.b - eta * sin t.b) + t.a)
  refine ⟨?_, r1, r2, lat_range _ _ _⟩
  rw [planePoint_eq, direction_eq]
  show _ • ![cos (dranrm _) * _, sin (dranrm _) * _, sin (atan2 _ _)] = _
  have hb : (dtp2s xi eta t).b =
    atan2 (sin t.b + eta * cos t.b) (sqrt (xi * xi + (cos t.b - eta * sin t.b) * (cos t.b - eta * sin t.b))) := rfl
  rw [hb, dranrm_cos, dranrm_sin, cos_add, sin_add]
  have h1 := polar_cos xi (cos t.b - eta * sin t.b)
  have h2 := polar_sin xi (cos t.b - eta * sin t.b)
  rw [add_comm] at h1 h2
  have h3 := lat_cos xi (cos t.b - eta * sin t.b) (sin t.b + eta * cos t.b)
  have h4 := lat_sin xi (cos t.b - eta * sin t.b) (sin t.b + eta * cos t.b)
  have ef : xi * xi + (cos t.b - eta * sin t.b) * (cos t.b - eta * sin t.b) +
      (sin t.b + eta * cos t.b) * (sin t.b + eta * cos t.b) = 1 + xi ^ 2 + eta ^ 2 := by
    linear_combination (1 + eta ^ 2) * sin_sq_add_cos_sq t.b
  rw [ef] at h3 h4
  generalize sqrt (1 + xi ^ 2 + eta ^ 2) = f at *
  generalize sqrt (xi * xi + (cos t.b - eta * sin t.b) * (cos t.b - eta * sin t.b)) = r at *
  generalize atan2 xi (cos t.b - eta * sin t.b) = A at *
  generalize atan2 (sin t.b + eta * cos t.b) r = B at *
  funext i
  fin_cases i <;> simp
  · linear_combination (cos A * cos t.a - sin A * sin t.a) * h3 + cos t.a * h1 - sin t.a * h2
  · linear_combination (sin A * cos t.a + cos A * sin t.a) * h3 + sin t.a * h1 + cos t.a * h2
  · linear_combination h4

theorem planePoint_dots (t : Spherical) (xi eta : ℝ) :
    planePoint t xi eta ⬝ᵥ direction t.a t.b = 1 ∧ planePoint t xi eta ⬝ᵥ east t.a = xi ∧
    planePoint t xi eta ⬝ᵥ north t.a t.b = eta := by
  have h1 := sin_sq_add_cos_sq t.a
  have h2 := sin_sq_add_cos_sq t.b
  rw [dot_tangent, dot_east, dot_north, planePoint_eq]
  refine ⟨?_, ?_, ?_⟩ <;> simp <;> grind

theorem proj_dots {p t : Spherical} {f xi eta : ℝ} (hf : f ≠ 0)
    (h : f • direction p.a p.b = planePoint t xi eta) :
    direction p.a p.b ⬝ᵥ direction t.a t.b = 1 / f ∧ direction p.a p.b ⬝ᵥ east t.a = xi / f ∧
    direction p.a p.b ⬝ᵥ north t.a t.b = eta / f := by
  obtain ⟨d1, d2, d3⟩ := planePoint_dots t xi eta
  rw [← h, smul_dotProduct, smul_eq_mul] at d1 d2 d3
  refine ⟨?_, ?_, ?_⟩
  · rw [eq_div_iff hf, mul_comm]; exact d1
  · rw [eq_div_iff hf, mul_comm]; exact d2
  · rw [eq_div_iff hf, mul_comm]; exact d3

/-- A star in the direction of a point of the tangent plane projects to that point. -/
theorem ds2tp_of_planePoint {p t : Spherical} {xi eta : ℝ} (hs : 1 + xi ^ 2 + eta ^ 2 < 1e12)
    (h : sqrt (1 + xi ^ 2 + eta ^ 2) • direction p.a p.b = planePoint t xi eta) : ds2tp p t = (.ok, xi, eta) := by
  have hf : 0 < sqrt (1 + xi ^ 2 + eta ^ 2) := sqrt_pos.2 (by positivity)
  have hf' : sqrt (1 + xi ^ 2 + eta ^ 2) < 1e6 := by
    rw [sqrt_lt' (by norm_num)]; norm_num at hs ⊢; linarith
  obtain ⟨d1, d2, d3⟩ := proj_dots hf.ne' h
  generalize sqrt (1 + xi ^ 2 + eta ^ 2) = f at *
  have hc : tppClassify (1 / f) = (.ok, 1 / f) := by
    unfold tppClassify
    rw [if_pos]
    rw [gt_iff_lt, lt_div_iff₀ hf]; norm_num at hf' ⊢; linarith
  rw [ds2tp_eq, d1, d2, d3, hc]
  congr 2 <;> field_simp

/-- Plane coordinates survive the round trip: `ds2tp` undoes `dtp2s`. -/
theorem C34_plane_round_trip (xi eta : ℝ) (t : Spherical) (h : 1 + xi ^ 2 + eta ^ 2 < 1e12) :
    ds2tp (dtp2s xi eta t) t = (.ok, xi, eta) :=
  ds2tp_of_planePoint h (C34_dtp2s xi eta t).1

/-- Plane coordinates so large that the point is within one millionth of 90 degrees are reported as too far. -/
theorem C34_plane_too_far (xi eta : ℝ) (t : Spherical) (h : 1e12 ≤ 1 + xi ^ 2 + eta ^ 2) :
    (ds2tp (dtp2s xi eta t) t).1 = .tooFar := by
  have hf : 1e6 ≤ sqrt (1 + xi ^ 2 + eta ^ 2) := le_sqrt_of_sq_le (by norm_num at h ⊢; linarith)
  have hf0 : 0 < sqrt (1 + xi ^ 2 + eta ^ 2) := by norm_num at hf; linarith
  obtain ⟨d1, -⟩ := proj_dots hf0.ne' (C34_dtp2s xi eta t).1
  refine (C34_status _ _).2.1.2 ?_
  rw [d1]
  refine ⟨by positivity, ?_⟩
  rw [div_le_iff₀ hf0]; norm_num at hf ⊢; linarith

theorem direction_inj {p q : Spherical} (h : direction p.a p.b = direction q.a q.b) (hp : |p.b| ≤ π / 2)
    (hq : |q.b| < π / 2) : SameAngle p.a q.a ∧ p.b = q.b := by
  rw [direction_eq, direction_eq] at h
  have h0 := congrFun h 0
  have h1 := congrFun h 1
  have h2 := congrFun h 2
  simp at h0 h1 h2
  have hb : p.b = q.b := by
    have a1 := abs_le.1 hp
    have a2 := abs_lt.1 hq
    exact injOn_sin ⟨by linarith, a1.2⟩ ⟨by linarith, a2.2.le⟩ h2
  rw [hb] at h0 h1
  have hc := (cos_pos_of_abs hq).ne'
  exact ⟨sameAngle_iff.2 ⟨mul_right_cancel₀ hc h0, mul_right_cancel₀ hc h1⟩, hb⟩

/-- A star within 90 degrees of the tangent point survives the round trip: `dtp2s` undoes `ds2tp`, returning the
    direction of the star, and its coordinates themselves unless the star is at a pole. -/
theorem C34_star_round_trip (p t : Spherical) (xi eta : ℝ) (h : ds2tp p t = (.ok, xi, eta)) :
    direction (dtp2s xi eta t).a (dtp2s xi eta t).b = direction p.a p.b ∧
    (|p.b| < π / 2 → dtp2s xi eta t = ⟨dranrm p.a, p.b⟩) := by
  have hd : direction (dtp2s xi eta t).a (dtp2s xi eta t).b = direction p.a p.b := by
    have h1 := C34_ds2tp p t (Or.inl (by rw [h]))
    have h2 := (C34_dtp2s xi eta t).1
    have hc := (C34_status p t).1.1 (by rw [h])
    rw [h] at h1
    simp only at h1
    rw [← h2, smul_smul] at h1
    have hf : 0 < sqrt (1 + xi ^ 2 + eta ^ 2) := sqrt_pos.2 (by positivity)
    generalize direction p.a p.b ⬝ᵥ direction t.a t.b = c at *
    norm_num at hc
    have hk : 0 < c * sqrt (1 + xi ^ 2 + eta ^ 2) := mul_pos (by linarith) hf
    have hu := direction_unit p.a p.b
    rw [h1, smul_dotProduct, dotProduct_smul, direction_unit] at hu
    have : c * sqrt (1 + xi ^ 2 + eta ^ 2) = 1 := by
      simp only [smul_eq_mul, mul_one] at hu
      nlinarith
    rw [h1, this, one_smul]
  refine ⟨hd, fun hb => ?_⟩
  have hr := (C34_dtp2s xi eta t).2
  obtain ⟨⟨k, hk⟩, e2⟩ := direction_inj hd hr.2.2 hb
  refine Spherical.ext ?_ e2
  exact (C15_dranrm_unique _ _ hr.1 hr.2.1 k hk).symm

example : ds2tp ⟨0, 0⟩ ⟨0, 0⟩ = (.ok, 0, 0) ∧ |(⟨0, 0⟩ : Spherical).b| < π / 2 := by
  refine ⟨ds2tp_of_planePoint (by norm_num) ?_, by simp [pi_pos]⟩
  simp [planePoint_eq, direction_eq]

example : ds2tp (dtp2s 3 (-7) ⟨1, 2⟩) ⟨1, 2⟩ = (.ok, 3, -7) := C34_plane_round_trip _ _ _ (by norm_num)

/-- Directions given as vectors: `dv2tp` at a tangent point off the poles. -/
theorem dv2tp_eq (v : Vec) (t : Spherical) (ht : |t.b| < π / 2) :
    dv2tp v (direction t.a t.b) = ((tppClassify (v ⬝ᵥ direction t.a t.b)).1,
      (v ⬝ᵥ east t.a) / (tppClassify (v ⬝ᵥ direction t.a t.b)).2,
      (v ⬝ᵥ north t.a t.b) / (tppClassify (v ⬝ᵥ direction t.a t.b)).2) := by
  have hc := cos_pos_of_abs ht
  have h1 := sin_sq_add_cos_sq t.a
  have e2 : direction t.a t.b 0 * direction t.a t.b 0 + direction t.a t.b 1 * direction t.a t.b 1 = cos t.b ^ 2 := by
    rw [direction_eq]; simp; linear_combination cos t.b ^ 2 * h1
  have er : sqrt (cos t.b ^ 2) = cos t.b := sqrt_sq hc.le
  have ed : v 0 * direction t.a t.b 0 + v 1 * direction t.a t.b 1 + v 2 * direction t.a t.b 2 =
      v ⬝ᵥ direction t.a t.b := by
    simp [dotProduct, Fin.sum_univ_three]
  unfold dv2tp
  simp only [e2, er, if_neg hc.ne', ed]
  rw [dot_east, dot_north]
  generalize (tppClassify (v ⬝ᵥ direction t.a t.b)) = q
  have e0 : direction t.a t.b 0 = cos t.a * cos t.b := by rw [direction_eq]; simp
  have e1 : direction t.a t.b 1 = sin t.a * cos t.b := by rw [direction_eq]; simp
  have e3 : direction t.a t.b 2 = sin t.b := by rw [direction_eq]; simp
  rw [e0, e1, e3]
  refine Prod.ext rfl (Prod.ext ?_ ?_)
  · show _ / (_ * cos t.b) = _ / _
    rw [← mul_div_mul_right _ q.2 hc.ne']; congr 1; ring
  · show _ / (_ * cos t.b) = _ / _
    rw [← mul_div_mul_right _ q.2 hc.ne']; congr 1; ring

/-- The vector and spherical projections agree in status and coordinates, for every star and every tangent point
    off the poles. -/
theorem C35_dv2tp (p t : Spherical) (ht : |t.b| < π / 2) :
    dv2tp (direction p.a p.b) (direction t.a t.b) = ds2tp p t := by
  rw [dv2tp_eq _ _ ht, ds2tp_eq]

/-- The vector and spherical deprojections agree for every tangent point off the poles. -/
theorem C35_dtp2v (xi eta : ℝ) (t : Spherical) (ht : |t.b| < π / 2) :
    dtp2v xi eta (direction t.a t.b) = direction (dtp2s xi eta t).a (dtp2s xi eta t).b := by
  have hc := cos_pos_of_abs ht
  have hf : 0 < sqrt (1 + xi ^ 2 + eta ^ 2) := sqrt_pos.2 (by positivity)
  have h1 := sin_sq_add_cos_sq t.a
  have h := (C34_dtp2s xi eta t).1
  have e2 : direction t.a t.b 0 * direction t.a t.b 0 + direction t.a t.b 1 * direction t.a t.b 1 = cos t.b ^ 2 := by
    rw [direction_eq]; simp; linear_combination cos t.b ^ 2 * h1
  have er : sqrt (cos t.b ^ 2) = cos t.b := sqrt_sq hc.le
  have e0 : direction t.a t.b 0 = cos t.a * cos t.b := by rw [direction_eq]; simp
  have e1 : direction t.a t.b 1 = sin t.a * cos t.b := by rw [direction_eq]; simp
  have e3 : direction t.a t.b 2 = sin t.b := by rw [direction_eq]; simp
  have : dtp2v xi eta (direction t.a t.b) = (1 / sqrt (1 + xi ^ 2 + eta ^ 2)) • planePoint t xi eta := by
    unfold dtp2v
    simp only [e2, er, if_neg hc.ne']
    rw [e0, e1, e3, planePoint_eq, show 1 + xi * xi + eta * eta = 1 + xi ^ 2 + eta ^ 2 by ring]
    generalize sqrt (1 + xi ^ 2 + eta ^ 2) = f at hf
    funext i
    fin_cases i <;> simp <;> field_simp <;> ring
  rw [this, ← h, smul_smul, one_div, inv_mul_cancel₀ hf.ne', one_smul]

/-- At a pole the vector forms use longitude zero for the tangent point (as `dcc2s` does) and step 1e-20 off the
    pole: `dv2tp` is the projection with the distance changed by at most 1e-20. -/
theorem C35_dv2tp_pole (v : Vec) (s : ℝ) (hs : s = 1 ∨ s = -1) :
    ∃ d, |d - v ⬝ᵥ ![0, 0, s]| = 1e-20 * |v 0| ∧ dv2tp v ![0, 0, s] =
      ((tppClassify d).1, (v ⬝ᵥ east 0) / (tppClassify d).2,
        (v ⬝ᵥ north 0 (s * (π / 2))) / (tppClassify d).2) := by
  have en : v ⬝ᵥ north 0 (s * (π / 2)) = -s * v 0 := by
    rw [north_eq]
    rcases hs with rfl | rfl
    · simp [dotProduct, Fin.sum_univ_three]
    · have : (-1 : ℝ) * (π / 2) = -(π / 2) := by ring
      rw [this]; simp [dotProduct, Fin.sum_univ_three]
  have ee : v ⬝ᵥ east 0 = v 1 := by rw [east_eq]; simp [dotProduct, Fin.sum_univ_three]
  refine ⟨v 0 * 1e-20 + v 2 * s, ?_, ?_⟩
  · simp only [dotProduct, Fin.sum_univ_three]
    simp
    rw [abs_of_pos (by norm_num : (0 : ℝ) < 1e-20), mul_comm]
  · rw [en, ee]
    unfold dv2tp
    simp
    generalize tppClassify _ = q
    constructor
    · rw [mul_div_mul_right]; norm_num
    · rw [show -(s * (v 0 * 1e-20)) = -(s * v 0) * 1e-20 by ring, mul_div_mul_right]; norm_num

/-- `dtp2v` at a pole: within `1e-20 (1 + |eta|)` of the exact direction in each component. -/
theorem C35_dtp2v_pole (xi eta s : ℝ) (hs : s = 1 ∨ s = -1) (i : Fin 3) :
    |dtp2v xi eta ![0, 0, s] i - direction (dtp2s xi eta ⟨0, s * (π / 2)⟩).a (dtp2s xi eta ⟨0, s * (π / 2)⟩).b i| ≤
      1e-20 := by
  have h := (C34_dtp2s xi eta ⟨0, s * (π / 2)⟩).1
  have hf : 1 ≤ sqrt (1 + xi ^ 2 + eta ^ 2) := by
    rw [one_le_sqrt]; nlinarith [sq_nonneg xi, sq_nonneg eta]
  have he : |eta| ≤ sqrt (1 + xi ^ 2 + eta ^ 2) := by
    apply le_sqrt_of_sq_le; rw [sq_abs]; nlinarith [sq_nonneg xi]
  have hp : planePoint ⟨0, s * (π / 2)⟩ xi eta = ![-eta * s, xi, s] := by
    rw [planePoint_eq]
    rcases hs with rfl | rfl
    · simp
    · have : (-1 : ℝ) * (π / 2) = -(π / 2) := by ring
      simp only [this]; simp
  rw [hp] at h
  have h' := congrFun h i
  simp only [Pi.smul_apply, smul_eq_mul] at h'
  have hf0 : 0 < sqrt (1 + xi ^ 2 + eta ^ 2) := by linarith
  generalize direction (dtp2s xi eta ⟨0, s * (π / 2)⟩).a (dtp2s xi eta ⟨0, s * (π / 2)⟩).b = D at h'
  have hD : D i = ![-eta * s, xi, s] i / sqrt (1 + xi ^ 2 + eta ^ 2) := by
    rw [eq_div_iff hf0.ne', mul_comm]; exact h'
  rw [hD]
  unfold dtp2v
  rw [show 1 + xi * xi + eta * eta = 1 + xi ^ 2 + eta ^ 2 by ring]
  generalize sqrt (1 + xi ^ 2 + eta ^ 2) = f at *
  fin_cases i
  · simp
    rw [mul_right_comm, mul_div_assoc, div_self (by norm_num), ← sub_div]
    rw [show (1e-20 - eta * s * 1 - -(eta * s)) = (1e-20 : ℝ) by ring, abs_of_pos (by positivity)]
    rw [div_le_iff₀ hf0]; norm_num; linarith
  · simp
    norm_num
  · simp
    rw [← sub_div, show s + eta * 1e-20 - s = eta * 1e-20 by ring, abs_div, abs_of_pos hf0, abs_mul,
      abs_of_pos (by norm_num : (0 : ℝ) < 1e-20), div_le_iff₀ hf0]
    norm_num; linarith

/-! ### Tangent point from plane coordinates -/

theorem sameAngle_atan2 {m c s b : ℝ} (hm : 0 < m) (h : c * c + s * s = m ^ 2) :
    SameAngle b (atan2 s c) ↔ m * cos b = c ∧ m * sin b = s := by
  have pc := polar_cos s c
  have ps := polar_sin s c
  rw [h, sqrt_sq hm.le] at pc ps
  rw [sameAngle_iff]
  constructor
  · rintro ⟨e1, e2⟩; rw [e1, e2]; exact ⟨pc, ps⟩
  · rintro ⟨e1, e2⟩
    exact ⟨mul_left_cancel₀ hm.ne' (e1.trans pc.symm), mul_left_cancel₀ hm.ne' (e2.trans ps.symm)⟩

theorem atan2_polar {m c s : ℝ} (hm : 0 < m) (h : c * c + s * s = m ^ 2) :
    m * cos (atan2 s c) = c ∧ m * sin (atan2 s c) = s :=
  (sameAngle_atan2 hm h).1 ⟨0, by simp⟩

theorem sameAngle_sub {a b x : ℝ} : SameAngle a (dranrm (b - x)) ↔ SameAngle (b - a) x := by
  have h : SameAngle (dranrm (b - x)) (b - x) := (C15_dranrm _).2.2
  constructor
  · intro e
    obtain ⟨k, hk⟩ := e.trans h
    exact ⟨-k, by push_cast; linarith⟩
  · rintro ⟨k, hk⟩
    exact SameAngle.trans ⟨-k, by push_cast; linarith⟩ h.symm

/-- A star projects to the given coordinates exactly if it is in the direction of that point of the plane. -/
theorem ds2tp_ok_iff {p t : Spherical} {xi eta : ℝ} (hs : 1 + xi ^ 2 + eta ^ 2 < 1e12) :
    ds2tp p t = (.ok, xi, eta) ↔
      sqrt (1 + xi ^ 2 + eta ^ 2) * sin p.b = sin t.b + eta * cos t.b ∧
      sqrt (1 + xi ^ 2 + eta ^ 2) * (cos p.b * cos (p.a - t.a)) = cos t.b - eta * sin t.b ∧
      sqrt (1 + xi ^ 2 + eta ^ 2) * (cos p.b * sin (p.a - t.a)) = xi := by
  have h1 : ds2tp p t = (.ok, xi, eta) ↔
      sqrt (1 + xi ^ 2 + eta ^ 2) • direction p.a p.b = planePoint t xi eta := by
    constructor
    · intro h
      rw [← (C34_star_round_trip p t xi eta h).1]
      exact (C34_dtp2s xi eta t).1
    · exact ds2tp_of_planePoint hs
  rw [h1, planePoint_eq, direction_eq, cos_sub, sin_sub]
  generalize sqrt (1 + xi ^ 2 + eta ^ 2) = f
  have ha := sin_sq_add_cos_sq t.a
  constructor
  · intro h
    have h0 := congrFun h 0
    have h1 := congrFun h 1
    have h2 := congrFun h 2
    simp at h0 h1 h2
    refine ⟨h2, ?_, ?_⟩
    · linear_combination cos t.a * h0 + sin t.a * h1 + (cos t.b - eta * sin t.b) * ha
    · linear_combination -sin t.a * h0 + cos t.a * h1 + xi * ha
  · rintro ⟨h0, h1, h2⟩
    funext i
    fin_cases i <;> simp
    · linear_combination cos t.a * h1 - sin t.a * h2 - f * cos p.a * cos p.b * ha
    · linear_combination sin t.a * h1 + cos t.a * h2 - f * sin p.a * cos p.b * ha
    · exact h0

/-- One of the two solutions, for either sign of the square root. -/
theorem solution_iff {p t : Spherical} {xi eta f r : ℝ} (hf : f ^ 2 = 1 + xi ^ 2 + eta ^ 2) (hf0 : 0 < f)
    (hp : 0 < cos p.b) (hr : r ^ 2 = cos p.b * cos p.b * (1 + eta * eta) - sin p.b * sin p.b * (xi * xi)) :
    (SameAngle t.a (dranrm (p.a - atan2 xi r)) ∧
      SameAngle t.b (atan2 (sin p.b * f - eta * r) (sin p.b * f * eta + r))) ↔
    (f * sin p.b = sin t.b + eta * cos t.b ∧ f * (cos p.b * cos (p.a - t.a)) = cos t.b - eta * sin t.b ∧
      f * (cos p.b * sin (p.a - t.a)) = xi ∧ cos t.b - eta * sin t.b = r) := by
  have hq := sin_sq_add_cos_sq p.b
  have hm : 0 < f * cos p.b := mul_pos hf0 hp
  have he : 0 < 1 + eta ^ 2 := by positivity
  rw [sameAngle_sub, sameAngle_atan2 hm (by linear_combination hr - cos p.b ^ 2 * hf - xi ^ 2 * hq),
    sameAngle_atan2 he (by
      linear_combination (1 + eta ^ 2) * hr + (1 + eta ^ 2) * sin p.b ^ 2 * hf + (1 + eta ^ 2) ^ 2 * hq)]
  constructor
  · rintro ⟨⟨a1, a2⟩, b1, b2⟩
    have hc : cos t.b - eta * sin t.b = r := by
      apply mul_left_cancel₀ he.ne'
      linear_combination b1 - eta * b2
    refine ⟨?_, by rw [hc]; linear_combination a1, by linear_combination a2, hc⟩
    apply mul_left_cancel₀ he.ne'
    linear_combination -b2 - eta * b1
  · rintro ⟨e1, e2, e3, e4⟩
    exact ⟨⟨by linear_combination e2 + e4, by linear_combination e3⟩,
      by linear_combination e4 - eta * e1, by linear_combination -e1 - eta * e4⟩

theorem dtps2c_eq {p : Spherical} (hp : 0 < cos p.b) (xi eta : ℝ) :
    dtps2c xi eta p =
      if cos p.b * cos p.b * (1 + eta * eta) - sin p.b * sin p.b * (xi * xi) ≥ 0 then
        let f := sqrt (1 + xi ^ 2 + eta ^ 2)
        let r := sqrt (cos p.b * cos p.b * (1 + eta * eta) - sin p.b * sin p.b * (xi * xi))
        (if |sin p.b * f| < 1 then 1 else 2,
          some (⟨dranrm (p.a - atan2 xi r), atan2 (sin p.b * f - eta * r) (sin p.b * f * eta + r)⟩,
            ⟨dranrm (p.a - atan2 xi (-r)), atan2 (sin p.b * f - eta * -r) (sin p.b * f * eta + -r)⟩))
      else (0, none) := by
  unfold dtps2c
  simp only [show 1 + xi * xi + eta * eta = 1 + xi ^ 2 + eta ^ 2 by ring]
  split_ifs with h h1 h2 h2
  · exfalso
    obtain ⟨rfl, h2⟩ := h2
    rw [sqrt_eq_zero h] at h2
    nlinarith [mul_pos hp hp, mul_self_nonneg eta, mul_nonneg (mul_pos hp hp).le (mul_self_nonneg eta)]
  · rfl
  · exfalso
    obtain ⟨rfl, h2⟩ := h2
    rw [sqrt_eq_zero h] at h2
    nlinarith [mul_pos hp hp, mul_self_nonneg eta, mul_nonneg (mul_pos hp hp).le (mul_self_nonneg eta)]
  · rfl
  · rfl

/-- Soundness and completeness of `dtps2c`: a tangent point puts the star at the given plane coordinates exactly if
    it is one of the two solutions delivered, up to whole turns.  In particular there is none if none is delivered. -/
theorem C36_dtps2c (xi eta : ℝ) (p t : Spherical) (hp : |p.b| < π / 2) (hs : 1 + xi ^ 2 + eta ^ 2 < 1e12) :
    ds2tp p t = (.ok, xi, eta) ↔ ∃ s1 s2, (dtps2c xi eta p).2 = some (s1, s2) ∧
      ((SameAngle t.a s1.a ∧ SameAngle t.b s1.b) ∨ (SameAngle t.a s2.a ∧ SameAngle t.b s2.b)) := by
  have hc := cos_pos_of_abs hp
  rw [ds2tp_ok_iff hs, dtps2c_eq hc]
  have hf0 : 0 < sqrt (1 + xi ^ 2 + eta ^ 2) := sqrt_pos.2 (by positivity)
  have hf : sqrt (1 + xi ^ 2 + eta ^ 2) ^ 2 = 1 + xi ^ 2 + eta ^ 2 := sq_sqrt (by positivity)
  generalize sqrt (1 + xi ^ 2 + eta ^ 2) = f at *
  have hq := sin_sq_add_cos_sq p.b
  split_ifs with h
  · have hr : sqrt (cos p.b * cos p.b * (1 + eta * eta) - sin p.b * sin p.b * (xi * xi)) ^ 2 =
      cos p.b * cos p.b * (1 + eta * eta) - sin p.b * sin p.b * (xi * xi) := sq_sqrt h
    generalize sqrt (cos p.b * cos p.b * (1 + eta * eta) - sin p.b * sin p.b * (xi * xi)) = r at *
    have i1 := solution_iff (t := t) hf hf0 hc hr
    have i2 := solution_iff (t := t) (r := -r) hf hf0 hc (by rw [neg_sq]; exact hr)
    constructor
    · rintro ⟨e1, e2, e3⟩
      refine ⟨_, _, rfl, ?_⟩
      simp only
      rw [i1, i2]
      have : (cos t.b - eta * sin t.b) ^ 2 = r ^ 2 := by
        rw [hr, ← e2]
        have ht := sin_sq_add_cos_sq (p.a - t.a)
        linear_combination f ^ 2 * cos p.b ^ 2 * ht + xi ^ 2 * hq + cos p.b ^ 2 * hf -
          (f * (cos p.b * sin (p.a - t.a)) + xi) * e3
      rcases sq_eq_sq_iff_eq_or_eq_neg.1 this with e | e
      · exact Or.inl ⟨e1, e2, e3, e⟩
      · exact Or.inr ⟨e1, e2, e3, e⟩
    · rintro ⟨s1, s2, e, h⟩
      simp only [Option.some.injEq, Prod.mk.injEq] at e
      obtain ⟨rfl, rfl⟩ := e
      simp only at h
      rw [i1, i2] at h
      rcases h with h | h <;> exact ⟨h.1, h.2.1, h.2.2.1⟩
  · constructor
    · rintro ⟨e1, e2, e3⟩
      exfalso
      apply h
      have ht := sin_sq_add_cos_sq (p.a - t.a)
      have : (cos t.b - eta * sin t.b) ^ 2 =
          cos p.b * cos p.b * (1 + eta * eta) - sin p.b * sin p.b * (xi * xi) := by
        rw [← e2]
        linear_combination f ^ 2 * cos p.b ^ 2 * ht + xi ^ 2 * hq + cos p.b ^ 2 * hf -
          (f * (cos p.b * sin (p.a - t.a)) + xi) * e3
      rw [← this]; positivity
    · rintro ⟨_, _, e, -⟩
      simp at e

/-- The count returned: zero if and only if no solutions are delivered; one if exactly the first of them lies between
    the poles and the second beyond a pole; two if both lie on the same side. -/
theorem C36_count (xi eta : ℝ) (p : Spherical) (hp : |p.b| < π / 2) :
    ((dtps2c xi eta p).1 = 0 ↔ (dtps2c xi eta p).2 = none) ∧ (dtps2c xi eta p).1 ≤ 2 ∧
    ∀ s1 s2, (dtps2c xi eta p).2 = some (s1, s2) →
      ((dtps2c xi eta p).1 = 1 → 0 < cos s1.b ∧ cos s2.b < 0) ∧
      ((dtps2c xi eta p).1 = 2 → 0 ≤ cos s1.b * cos s2.b) := by
  have hc := cos_pos_of_abs hp
  rw [dtps2c_eq hc]
  have hf : sqrt (1 + xi ^ 2 + eta ^ 2) ^ 2 = 1 + xi ^ 2 + eta ^ 2 := sq_sqrt (by positivity)
  generalize sqrt (1 + xi ^ 2 + eta ^ 2) = f at *
  have hq := sin_sq_add_cos_sq p.b
  have he : 0 < 1 + eta ^ 2 := by positivity
  by_cases h : cos p.b * cos p.b * (1 + eta * eta) - sin p.b * sin p.b * (xi * xi) ≥ 0
  rw [if_pos h]
  by_cases h1 : |sin p.b * f| < 1
  · have hr : sqrt (cos p.b * cos p.b * (1 + eta * eta) - sin p.b * sin p.b * (xi * xi)) ^ 2 =
      cos p.b * cos p.b * (1 + eta * eta) - sin p.b * sin p.b * (xi * xi) := sq_sqrt h
    have hr0 := sqrt_nonneg (cos p.b * cos p.b * (1 + eta * eta) - sin p.b * sin p.b * (xi * xi))
    generalize sqrt (cos p.b * cos p.b * (1 + eta * eta) - sin p.b * sin p.b * (xi * xi)) = r at *
    simp only [h1, if_true]
    refine ⟨by simp, by simp, fun s1 s2 e => ⟨fun _ => ?_, fun e2 => by simp at e2⟩⟩
    simp only [Option.some.injEq, Prod.mk.injEq] at e
    obtain ⟨rfl, rfl⟩ := e
    have b1 := (atan2_polar (s := sin p.b * f - eta * r) (c := sin p.b * f * eta + r) he (by
      linear_combination (1 + eta ^ 2) * hr + (1 + eta ^ 2) * sin p.b ^ 2 * hf + (1 + eta ^ 2) ^ 2 * hq)).1
    have b2 := (atan2_polar (s := sin p.b * f - eta * -r) (c := sin p.b * f * eta + -r) he (by
      linear_combination (1 + eta ^ 2) * hr + (1 + eta ^ 2) * sin p.b ^ 2 * hf + (1 + eta ^ 2) ^ 2 * hq)).1
    have hsq : (sin p.b * f) ^ 2 < 1 := by
      rw [← sq_abs]; nlinarith [abs_nonneg (sin p.b * f)]
    have hlt : (sin p.b * f * eta) ^ 2 < r ^ 2 := by
      have : r ^ 2 - (sin p.b * f * eta) ^ 2 = (1 + eta ^ 2) * (1 - (sin p.b * f) ^ 2) := by
        linear_combination hr + sin p.b ^ 2 * hf + (1 + eta ^ 2) * hq
      nlinarith [mul_pos he (by linarith : 0 < 1 - (sin p.b * f) ^ 2)]
    have := abs_lt_of_sq_lt_sq' hlt hr0
    simp only
    generalize cos (atan2 (sin p.b * f - eta * r) (sin p.b * f * eta + r)) = c1 at *
    generalize cos (atan2 (sin p.b * f - eta * -r) (sin p.b * f * eta + -r)) = c2 at *
    constructor
    · by_contra hn; nlinarith
    · by_contra hn; nlinarith
  · have hr : sqrt (cos p.b * cos p.b * (1 + eta * eta) - sin p.b * sin p.b * (xi * xi)) ^ 2 =
      cos p.b * cos p.b * (1 + eta * eta) - sin p.b * sin p.b * (xi * xi) := sq_sqrt h
    have hr0 := sqrt_nonneg (cos p.b * cos p.b * (1 + eta * eta) - sin p.b * sin p.b * (xi * xi))
    generalize sqrt (cos p.b * cos p.b * (1 + eta * eta) - sin p.b * sin p.b * (xi * xi)) = r at *
    simp only [h1, if_false]
    refine ⟨by simp, by simp, fun s1 s2 e => ⟨fun e2 => by simp at e2, fun _ => ?_⟩⟩
    simp only [Option.some.injEq, Prod.mk.injEq] at e
    obtain ⟨rfl, rfl⟩ := e
    have b1 := (atan2_polar (s := sin p.b * f - eta * r) (c := sin p.b * f * eta + r) he (by
      linear_combination (1 + eta ^ 2) * hr + (1 + eta ^ 2) * sin p.b ^ 2 * hf + (1 + eta ^ 2) ^ 2 * hq)).1
    have b2 := (atan2_polar (s := sin p.b * f - eta * -r) (c := sin p.b * f * eta + -r) he (by
      linear_combination (1 + eta ^ 2) * hr + (1 + eta ^ 2) * sin p.b ^ 2 * hf + (1 + eta ^ 2) ^ 2 * hq)).1
    have hsq : 1 ≤ (sin p.b * f) ^ 2 := by
      rw [← sq_abs]; nlinarith [abs_nonneg (sin p.b * f), not_lt.1 h1]
    simp only
    generalize cos (atan2 (sin p.b * f - eta * r) (sin p.b * f * eta + r)) = c1 at *
    generalize cos (atan2 (sin p.b * f - eta * -r) (sin p.b * f * eta + -r)) = c2 at *
    have : (1 + eta ^ 2) ^ 2 * (c1 * c2) = (1 + eta ^ 2) * ((sin p.b * f) ^ 2 - 1) := by
      linear_combination (1 + eta ^ 2) * c2 * b1 + (sin p.b * f * eta + r) * b2 - hr - sin p.b ^ 2 * hf -
        (1 + eta ^ 2) * hq
    have h2 : 0 ≤ (1 + eta ^ 2) ^ 2 * (c1 * c2) := by
      rw [this]; exact mul_nonneg he.le (by linarith)
    exact nonneg_of_mul_nonneg_right h2 (by positivity)
  · rw [if_neg h]
    exact ⟨by simp, by simp, fun s1 s2 e => by simp at e⟩

/-- The vector form delivers the same count and the directions of the same two solutions, except in the borderline
    case in which the two solutions coincide. -/
theorem C36_dtpv2c (xi eta : ℝ) (p : Spherical) (hp : |p.b| < π / 2)
    (hb : cos p.b ^ 2 * (1 + eta ^ 2) ≠ sin p.b ^ 2 * xi ^ 2) :
    dtpv2c xi eta (direction p.a p.b) = ((dtps2c xi eta p).1,
      (dtps2c xi eta p).2.map fun s => (direction s.1.a s.1.b, direction s.2.a s.2.b)) := by
  have hc := cos_pos_of_abs hp
  rw [dtps2c_eq hc]
  have hf0 : 0 < sqrt (1 + xi ^ 2 + eta ^ 2) := sqrt_pos.2 (by positivity)
  have hf : sqrt (1 + xi ^ 2 + eta ^ 2) ^ 2 = 1 + xi ^ 2 + eta ^ 2 := sq_sqrt (by positivity)
  have hq := sin_sq_add_cos_sq p.b
  have ha := sin_sq_add_cos_sq p.a
  have he : 0 < 1 + eta ^ 2 := by positivity
  have e2 : direction p.a p.b 0 * direction p.a p.b 0 + direction p.a p.b 1 * direction p.a p.b 1 = cos p.b * cos p.b := by
    rw [direction_eq]; simp; linear_combination cos p.b ^ 2 * ha
  have e0 : direction p.a p.b 0 = cos p.a * cos p.b := by rw [direction_eq]; simp
  have e1 : direction p.a p.b 1 = sin p.a * cos p.b := by rw [direction_eq]; simp
  have e3 : direction p.a p.b 2 = sin p.b := by rw [direction_eq]; simp
  unfold dtpv2c
  simp only [e2]
  simp only [e0, e1, e3, show eta * eta + 1 = 1 + eta * eta by ring,
    show xi * xi + (1 + eta * eta) = 1 + xi ^ 2 + eta ^ 2 by ring]
  by_cases h : cos p.b * cos p.b * (1 + eta * eta) - sin p.b * sin p.b * (xi * xi) > 0
  · rw [if_pos h, if_pos h.le]
    have hs : sqrt (cos p.b * cos p.b * (cos p.b * cos p.b * (1 + eta * eta) - sin p.b * sin p.b * (xi * xi) + xi * xi))
        = sqrt (1 + xi ^ 2 + eta ^ 2) * cos p.b * cos p.b := by
      rw [show cos p.b * cos p.b * (cos p.b * cos p.b * (1 + eta * eta) - sin p.b * sin p.b * (xi * xi) + xi * xi) =
        (sqrt (1 + xi ^ 2 + eta ^ 2) * cos p.b * cos p.b) ^ 2 by
          linear_combination -cos p.b ^ 4 * hf - cos p.b ^ 2 * xi ^ 2 * hq, sqrt_sq (by positivity)]
    rw [hs]
    generalize sqrt (1 + xi ^ 2 + eta ^ 2) = f at *
    have hr : sqrt (cos p.b * cos p.b * (1 + eta * eta) - sin p.b * sin p.b * (xi * xi)) ^ 2 =
      cos p.b * cos p.b * (1 + eta * eta) - sin p.b * sin p.b * (xi * xi) := sq_sqrt h.le
    generalize sqrt (cos p.b * cos p.b * (1 + eta * eta) - sin p.b * sin p.b * (xi * xi)) = r at *
    have key : ∀ r : ℝ, r ^ 2 = cos p.b * cos p.b * (1 + eta * eta) - sin p.b * sin p.b * (xi * xi) →
        ![(sin p.b * f * eta + r) / ((1 + eta * eta) * (f * cos p.b * cos p.b)) *
            (cos p.a * cos p.b * r + sin p.a * cos p.b * xi),
          (sin p.b * f * eta + r) / ((1 + eta * eta) * (f * cos p.b * cos p.b)) *
            (sin p.a * cos p.b * r - cos p.a * cos p.b * xi),
          (sin p.b * f - eta * r) / (1 + eta * eta)] =
        direction (dranrm (p.a - atan2 xi r)) (atan2 (sin p.b * f - eta * r) (sin p.b * f * eta + r)) := by
      intro r hr
      have hm : 0 < f * cos p.b := mul_pos hf0 hc
      obtain ⟨a1, a2⟩ := atan2_polar (s := xi) (c := r) hm
        (by linear_combination hr - cos p.b ^ 2 * hf - xi ^ 2 * hq)
      obtain ⟨b1, b2⟩ := atan2_polar (s := sin p.b * f - eta * r) (c := sin p.b * f * eta + r) he (by
        linear_combination (1 + eta ^ 2) * hr + (1 + eta ^ 2) * sin p.b ^ 2 * hf + (1 + eta ^ 2) ^ 2 * hq)
      rw [direction_eq, dranrm_cos, dranrm_sin, cos_sub, sin_sub]
      generalize atan2 xi r = A at *
      generalize atan2 (sin p.b * f - eta * r) (sin p.b * f * eta + r) = B at *
      rw [← b1, ← b2]
      subst a1
      have hpe : 1 + eta * eta = 1 + eta ^ 2 := by ring
      rw [hpe]
      funext i
      fin_cases i <;> simp
      · rw [← a2]; field_simp
      · rw [← a2]; field_simp
      · field_simp
    have k1 := key r hr
    have k2 := key (-r) (by rw [neg_sq]; exact hr)
    simp only [Option.map_some]
    rw [← k1, ← k2]
  · rw [if_neg h, if_neg]
    · rfl
    · intro h2
      apply hb
      have := le_antisymm (not_lt.1 h) h2
      linear_combination this

/-- In the borderline case the vector form reports no solution although there is one: the star at declination 45
    degrees and plane coordinates (1, 0), with the pole as tangent point. -/
theorem C36_dtpv2c_borderline :
    dtpv2c 1 0 (direction 0 (π / 4)) = (0, none) ∧ (dtps2c 1 0 ⟨0, π / 4⟩).1 = 2 ∧
    ∃ t, ds2tp ⟨0, π / 4⟩ t = (.ok, 1, 0) := by
  have hs2 : sqrt 2 * sqrt 2 = 2 := mul_self_sqrt (by norm_num)
  have hp : |(⟨0, π / 4⟩ : Spherical).b| < π / 2 := by
    simp only; rw [abs_of_pos (by positivity)]; linarith [pi_pos]
  have hd : (dtps2c 1 0 ⟨0, π / 4⟩).1 = 2 ∧ ∃ s1 s2, (dtps2c 1 0 ⟨0, π / 4⟩).2 = some (s1, s2) := by
    rw [dtps2c_eq (cos_pos_of_abs hp)]
    simp only [cos_pi_div_four, sin_pi_div_four]
    rw [if_pos (by norm_num)]
    refine ⟨?_, _, _, rfl⟩
    show (if _ then 1 else 2) = 2
    rw [if_neg]
    rw [show (1 : ℝ) + 1 ^ 2 + 0 ^ 2 = 2 by norm_num, show sqrt 2 / 2 * sqrt 2 = 1 by linarith]
    norm_num
  refine ⟨?_, hd.1, ?_⟩
  · unfold dtpv2c
    rw [direction_eq]
    simp only [cos_pi_div_four, sin_pi_div_four]
    rw [if_neg]
    simp
  · obtain ⟨s1, s2, e⟩ := hd.2
    exact ⟨s1, (C36_dtps2c 1 0 _ s1 hp (by norm_num)).2 ⟨s1, s2, e, Or.inl ⟨⟨0, by simp⟩, ⟨0, by simp⟩⟩⟩⟩

/-- A star exactly at the pole and on the meridian of the field: `dtps2c` announces two solutions but the second one
    does not reproduce the plane coordinates. -/
theorem C36_pole_star : ∃ s1 s2, dtps2c 0 1 ⟨0, π / 2⟩ = (2, some (s1, s2)) ∧
    ds2tp ⟨0, π / 2⟩ s1 = (.ok, 0, 1) ∧ ds2tp ⟨0, π / 2⟩ s2 ≠ (.ok, 0, 1) := by
  have hs2 : sqrt 2 * sqrt 2 = 2 := mul_self_sqrt (by norm_num)
  have hs0 : 0 < sqrt 2 := sqrt_pos.2 (by norm_num)
  have hs1 : 1 < sqrt 2 := by nlinarith
  have hf : (1 : ℝ) + 0 ^ 2 + 1 ^ 2 = 2 := by norm_num
  have e : dtps2c 0 1 ⟨0, π / 2⟩ = (2, some (⟨dranrm (0 - atan2 0 1), atan2 (sqrt 2) (sqrt 2)⟩,
      ⟨dranrm (0 - atan2 0 (-1)), atan2 (sqrt 2 + 1) (sqrt 2 - 1)⟩)) := by
    unfold dtps2c
    have h11 : (1 : ℝ) + 1 = 2 := by norm_num
    simp [h11, abs_of_pos hs0]
    rw [← sub_eq_add_neg]
  refine ⟨_, _, e, ?_, ?_⟩
  · rw [ds2tp_ok_iff (by norm_num), hf]
    simp only [sin_pi_div_two, cos_pi_div_two]
    obtain ⟨b1, b2⟩ := atan2_polar (s := sqrt 2) (c := sqrt 2) (m := 2) (by norm_num)
      (by rw [hs2]; norm_num)
    refine ⟨by linarith, by linarith, by ring⟩
  · rw [Ne, ds2tp_ok_iff (by norm_num), hf]
    simp only [sin_pi_div_two, cos_pi_div_two]
    have hm : (sqrt 2 - 1) * (sqrt 2 - 1) + (sqrt 2 + 1) * (sqrt 2 + 1) = sqrt 6 ^ 2 := by
      rw [sq_sqrt (by norm_num)]; nlinarith
    obtain ⟨b1, b2⟩ := atan2_polar (sqrt_pos.2 (by norm_num)) hm
    rintro ⟨-, h, -⟩
    have h6 : (0 : ℝ) < sqrt 6 := sqrt_pos.2 (by norm_num)
    nlinarith

example : |(⟨1, 1⟩ : Spherical).b| < π / 2 ∧ (1 : ℝ) + 2 ^ 2 + 3 ^ 2 < 1e12 := by
  refine ⟨?_, by norm_num⟩
  have := pi_gt_three
  simp; linarith

example : |(⟨0, π / 4⟩ : Spherical).b| < π / 2 ∧
    cos (⟨0, π / 4⟩ : Spherical).b ^ 2 * (1 + (3 : ℝ) ^ 2) ≠ sin (⟨0, π / 4⟩ : Spherical).b ^ 2 * (2 : ℝ) ^ 2 := by
  have hs2 : sqrt 2 ^ 2 = 2 := sq_sqrt (by norm_num)
  refine ⟨?_, ?_⟩
  · simp only; rw [abs_of_pos (by positivity)]; linarith [pi_pos]
  · simp only [cos_pi_div_four, sin_pi_div_four, div_pow, hs2]; norm_num

end Sla.Props
