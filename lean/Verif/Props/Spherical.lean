import Verif.Lemmas.Spherical
import Mathlib.Geometry.Euclidean.Angle.Unoriented.TriangleInequality
import Mathlib.Analysis.Real.Pi.Bounds
import Mathlib.Analysis.Calculus.Deriv.Prod
import Mathlib.LinearAlgebra.Matrix.DotProduct

/-
C25 spherical/Cartesian directions, C26 position-velocity conversion, C27 separation, C28 bearing.
-/
namespace Sla.Props
open Sla Sla.Spec Real Matrix

/-! ### C25 -/

/-- `dcs2c` gives the unit vector in the direction with the given longitude and latitude. -/
theorem C25_dcs2c (s : Spherical) : dcs2c s = direction s.a s.b ∧ dcs2c s ⬝ᵥ dcs2c s = 1 := by
  rw [dcs2c_eq]; exact ⟨rfl, direction_unit _ _⟩

/-- `dcc2s` gives the longitude and latitude of any vector: the vector is its length times their direction, and
    they are in the documented ranges. -/
theorem C25_dcc2s (v : Vec) :
    v = len v • direction (dcc2s v).a (dcc2s v).b ∧ -π < (dcc2s v).a ∧ (dcc2s v).a ≤ π ∧ |(dcc2s v).b| ≤ π / 2 := by
  rw [dcc2s_eq]
  exact ⟨spherical_polar v, (atan2_mem _ _).1, (atan2_mem _ _).2, lat_range _ _ _⟩

/-- The null vector gives zeros; a vector along the z axis gives zero longitude and the latitude of the pole. -/
theorem C25_special : dcc2s ![0, 0, 0] = ⟨0, 0⟩ ∧
    (∀ z > 0, dcc2s ![0, 0, z] = ⟨0, π / 2⟩) ∧ (∀ z < 0, dcc2s ![0, 0, z] = ⟨0, -(π / 2)⟩) := by
  refine ⟨?_, fun z hz => ?_, fun z hz => ?_⟩
  · rw [dcc2s_eq]; simp [atan2_zero_zero]
  · rw [dcc2s_eq]; simp only [cons_val_zero, cons_val_one, cons_val, mul_zero, add_zero, sqrt_zero, atan2_zero_zero]
    congr 1
    exact atan2_unique hz (by linarith [pi_pos]) (by linarith [pi_pos]) (by simp) (by simp)
  · rw [dcc2s_eq]; simp only [cons_val_zero, cons_val_one, cons_val, mul_zero, add_zero, sqrt_zero, atan2_zero_zero]
    congr 1
    exact atan2_unique (r := -z) (by linarith) (by linarith [pi_pos]) (by linarith [pi_pos]) (by simp) (by simp)

/-- Going to Cartesian (with any positive length) and back returns the coordinates. -/
theorem C25_round_trip (s : Spherical) (r : ℝ) (hr : 0 < r) (h1 : -π < s.a) (h2 : s.a ≤ π) (hb : |s.b| < π / 2) :
    dcc2s (r • dcs2c s) = s := by
  obtain ⟨p1, p2, -⟩ := polar_direction hr h1 h2 hb ((r • dcs2c s) 0) ((r • dcs2c s) 1) ((r • dcs2c s) 2)
    (by simp [dcs2c]) (by simp [dcs2c]) (by simp [dcs2c])
  rw [dcc2s_eq, p1, p2]

example : -π < (⟨3, 1⟩ : Spherical).a ∧ (⟨3, 1⟩ : Spherical).a ≤ π ∧ |(⟨3, 1⟩ : Spherical).b| < π / 2 := by
  have := pi_gt_three
  refine ⟨by simp; linarith, by simp; linarith, by simp; linarith⟩

/-! ### C26 -/

/-- `ds2c6` gives the position, and for every motion with the given coordinates and rates its velocity is the
    derivative of the position. -/
theorem C26_ds2c6 (long lat dist : ℝ → ℝ) (t dlong dlat ddist : ℝ) (h1 : HasDerivAt long dlong t)
    (h2 : HasDerivAt lat dlat t) (h3 : HasDerivAt dist ddist t) :
    (ds2c6 ⟨long t, lat t, dist t, dlong, dlat, ddist⟩).pos = dist t • direction (long t) (lat t) ∧
    HasDerivAt (fun u => dist u • direction (long u) (lat u))
      (ds2c6 ⟨long t, lat t, dist t, dlong, dlat, ddist⟩).vel t := by
  constructor
  · rw [direction_eq]
    funext i
    fin_cases i <;> simp [ds2c6] <;> ring
  · rw [hasDerivAt_pi]
    intro i
    simp only [direction_eq, Pi.smul_apply, smul_eq_mul]
    fin_cases i
    · simp only [Fin.zero_eta, Fin.isValue, cons_val_zero]
      refine (h3.mul ((h1.cos).mul h2.cos)).congr_deriv ?_
      simp [ds2c6]; ring
    · simp only [Fin.mk_one, Fin.isValue, cons_val_one, cons_val_zero]
      refine (h3.mul ((h1.sin).mul h2.cos)).congr_deriv ?_
      simp [ds2c6]; ring
    · simp only [Fin.reduceFinMk, Fin.isValue, cons_val]
      refine (h3.mul h2.sin).congr_deriv ?_
      simp [ds2c6]; ring

example : HasDerivAt (fun t : ℝ => 2 * t) 2 1 ∧ HasDerivAt (fun t : ℝ => sin t) (cos 1) 1 ∧
    HasDerivAt (fun t : ℝ => t ^ 2) (2 * 1) 1 := by
  refine ⟨by simpa using (hasDerivAt_id (1 : ℝ)).const_mul 2, hasDerivAt_sin 1, by simpa using hasDerivAt_pow 2 (1 : ℝ)⟩

/-- Off the polar axis the model of `dc62s` simplifies. -/
theorem dc62s_off_axis (c : VectorPV) (h : c.pos 0 * c.pos 0 + c.pos 1 * c.pos 1 ≠ 0) :
    dc62s c =
      let x := c.pos 0
      let y := c.pos 1
      let z := c.pos 2
      let rxy := sqrt (x * x + y * y)
      let dist := sqrt (x * x + y * y + z * z)
      { long := atan2 y x, lat := atan2 z rxy, dist := dist
        dlong := (x * c.vel 1 - y * c.vel 0) / (x * x + y * y)
        dlat := (c.vel 2 * (x * x + y * y) - z * (x * c.vel 0 + y * c.vel 1)) / ((x * x + y * y + z * z) * rxy)
        ddist := (x * c.vel 0 + y * c.vel 1 + z * c.vel 2) / dist } := by
  have hp : 0 < c.pos 0 * c.pos 0 + c.pos 1 * c.pos 1 :=
    lt_of_le_of_ne (by nlinarith [mul_self_nonneg (c.pos 0), mul_self_nonneg (c.pos 1)]) h.symm
  have hp2 : 0 < c.pos 0 * c.pos 0 + c.pos 1 * c.pos 1 + c.pos 2 * c.pos 2 := by
    nlinarith [mul_self_nonneg (c.pos 2)]
  unfold dc62s
  simp only [hp2.ne', if_false, ne_eq, h, not_false_eq_true, if_true, (sqrt_pos.2 hp2).ne']

/-- `ds2c6` undoes `dc62s` for every position off the polar axis. -/
theorem C26_ds2c6_dc62s (c : VectorPV) (h : c.pos 0 ^ 2 + c.pos 1 ^ 2 ≠ 0) : ds2c6 (dc62s c) = c := by
  have h' : c.pos 0 * c.pos 0 + c.pos 1 * c.pos 1 ≠ 0 := by simpa [sq] using h
  have hp : 0 < c.pos 0 * c.pos 0 + c.pos 1 * c.pos 1 :=
    lt_of_le_of_ne (by nlinarith [mul_self_nonneg (c.pos 0), mul_self_nonneg (c.pos 1)]) h'.symm
  have hp2 : 0 < c.pos 0 * c.pos 0 + c.pos 1 * c.pos 1 + c.pos 2 * c.pos 2 := by
    nlinarith [mul_self_nonneg (c.pos 2)]
  rw [dc62s_off_axis c h']
  have a1 := lat_cos (c.pos 0) (c.pos 1) (c.pos 2)
  have a2 := lat_sin (c.pos 0) (c.pos 1) (c.pos 2)
  have a3 := polar_cos (c.pos 1) (c.pos 0)
  have a4 := polar_sin (c.pos 1) (c.pos 0)
  have e1 : sqrt (c.pos 0 * c.pos 0 + c.pos 1 * c.pos 1) ^ 2 = c.pos 0 * c.pos 0 + c.pos 1 * c.pos 1 :=
    sq_sqrt hp.le
  have e2 : sqrt (c.pos 0 * c.pos 0 + c.pos 1 * c.pos 1 + c.pos 2 * c.pos 2) ^ 2 =
    c.pos 0 * c.pos 0 + c.pos 1 * c.pos 1 + c.pos 2 * c.pos 2 := sq_sqrt hp2.le
  have r1 := sqrt_pos.2 hp
  have r2 := sqrt_pos.2 hp2
  obtain ⟨p, v⟩ := c
  simp only at *
  generalize sqrt (p 0 * p 0 + p 1 * p 1) = r at *
  generalize sqrt (p 0 * p 0 + p 1 * p 1 + p 2 * p 2) = d at *
  generalize atan2 (p 1) (p 0) = A at *
  generalize atan2 (p 2) r = B at *
  have cB : cos B = r / d := by rw [eq_div_iff r2.ne']; linarith
  have sB : sin B = p 2 / d := by rw [eq_div_iff r2.ne']; linarith
  have cA : cos A = p 0 / r := by rw [eq_div_iff r1.ne']; linarith
  have sA : sin A = p 1 / r := by rw [eq_div_iff r1.ne']; linarith
  unfold ds2c6
  simp only [cB, sB, cA, sA]
  rw [← e2, ← e1]
  congr 1
  · funext i
    fin_cases i <;> simp <;> field_simp
  · funext i
    fin_cases i <;> simp <;> field_simp
    · grind
    · grind
    · grind

/-- `dc62s` undoes `ds2c6` for every position with a positive distance off the polar axis. -/
theorem C26_dc62s_ds2c6 (s : SphericalPV) (h1 : -π < s.long) (h2 : s.long ≤ π) (hb : |s.lat| < π / 2)
    (hr : 0 < s.dist) : dc62s (ds2c6 s) = s := by
  have hc := cos_pos_of_abs hb
  obtain ⟨p1, p2, p3⟩ := polar_direction hr h1 h2 hb ((ds2c6 s).pos 0) ((ds2c6 s).pos 1) ((ds2c6 s).pos 2)
    (by simp [ds2c6]; ring) (by simp [ds2c6]; ring) (by simp [ds2c6])
  have hA := sin_sq_add_cos_sq s.long
  have hB := sin_sq_add_cos_sq s.lat
  have q : (ds2c6 s).pos 0 * (ds2c6 s).pos 0 + (ds2c6 s).pos 1 * (ds2c6 s).pos 1 = (s.dist * cos s.lat) ^ 2 := by
    simp [ds2c6]; linear_combination (s.dist * cos s.lat) ^ 2 * hA
  have q2 : (ds2c6 s).pos 0 * (ds2c6 s).pos 0 + (ds2c6 s).pos 1 * (ds2c6 s).pos 1 +
      (ds2c6 s).pos 2 * (ds2c6 s).pos 2 = s.dist ^ 2 := by
    rw [q]; simp [ds2c6]; linear_combination s.dist ^ 2 * hB
  have q3 : sqrt (s.dist ^ 2) = s.dist := sqrt_sq hr.le
  rw [dc62s_off_axis _ (by rw [q]; positivity)]
  simp only [p1, p3, q2, q3]
  rw [q]
  apply SphericalPV.ext <;> simp only [ds2c6, cons_val_zero, cons_val_one, cons_val]
  · have := abs_lt.1 hb
    exact atan2_polar hr (by linarith [pi_pos]) (by linarith [pi_pos])
  · rw [div_eq_iff (by positivity)]
    linear_combination (s.dist ^ 2 * cos s.lat ^ 2 * s.dlong) * hA
  · rw [div_eq_iff (by positivity)]
    linear_combination (s.dist ^ 3 * cos s.lat * sin s.lat ^ 2 * s.dlat -
        s.dist ^ 2 * sin s.lat * cos s.lat ^ 2 * s.ddist) * hA + (s.dist ^ 3 * cos s.lat * s.dlat) * hB
  · rw [div_eq_iff (by positivity)]
    linear_combination (-s.dist ^ 2 * cos s.lat * sin s.lat * s.dlat +
        s.dist * cos s.lat ^ 2 * s.ddist) * hA + s.dist * s.ddist * hB

/-- The rates returned by `dc62s` are the derivatives of the coordinates it returns, along every motion off the
    polar axis.  (The longitude itself jumps where it wraps round at `π`; its sine and cosine do not.) -/
theorem C26_dc62s_rates (p vel : ℝ → Vec) (t : ℝ) (hp : HasDerivAt p (vel t) t) (h : p t 0 ^ 2 + p t 1 ^ 2 ≠ 0) :
    HasDerivAt (fun u => (dc62s ⟨p u, vel u⟩).lat) (dc62s ⟨p t, vel t⟩).dlat t ∧
    HasDerivAt (fun u => (dc62s ⟨p u, vel u⟩).dist) (dc62s ⟨p t, vel t⟩).ddist t ∧
    HasDerivAt (fun u => sin (dc62s ⟨p u, vel u⟩).long)
      (cos (dc62s ⟨p t, vel t⟩).long * (dc62s ⟨p t, vel t⟩).dlong) t ∧
    HasDerivAt (fun u => cos (dc62s ⟨p u, vel u⟩).long)
      (-sin (dc62s ⟨p t, vel t⟩).long * (dc62s ⟨p t, vel t⟩).dlong) t ∧
    ((0 < p t 0 ∨ p t 1 ≠ 0) →
      HasDerivAt (fun u => (dc62s ⟨p u, vel u⟩).long) (dc62s ⟨p t, vel t⟩).dlong t) := by
  have h' : p t 0 * p t 0 + p t 1 * p t 1 ≠ 0 := by simpa [sq] using h
  have hpos : 0 < p t 0 * p t 0 + p t 1 * p t 1 :=
    lt_of_le_of_ne (by nlinarith [mul_self_nonneg (p t 0), mul_self_nonneg (p t 1)]) h'.symm
  have hpos2 : 0 < p t 0 * p t 0 + p t 1 * p t 1 + p t 2 * p t 2 := by
    nlinarith [mul_self_nonneg (p t 2)]
  have d := hasDerivAt_pi.1 hp
  have d0 := d 0
  have d1 := d 1
  have d2 := d 2
  have dr := (d0.mul d0).add (d1.mul d1)
  have hev : ∀ᶠ u in nhds t, p u 0 * p u 0 + p u 1 * p u 1 ≠ 0 := dr.continuousAt.eventually_ne h'
  have el : ∀ f : SphericalPV → ℝ, (fun u => f (dc62s ⟨p u, vel u⟩)) =ᶠ[nhds t] fun u => f (
      { long := atan2 (p u 1) (p u 0), lat := atan2 (p u 2) (sqrt (p u 0 * p u 0 + p u 1 * p u 1))
        dist := sqrt (p u 0 * p u 0 + p u 1 * p u 1 + p u 2 * p u 2)
        dlong := (p u 0 * vel u 1 - p u 1 * vel u 0) / (p u 0 * p u 0 + p u 1 * p u 1)
        dlat := (vel u 2 * (p u 0 * p u 0 + p u 1 * p u 1) - p u 2 * (p u 0 * vel u 0 + p u 1 * vel u 1)) /
          ((p u 0 * p u 0 + p u 1 * p u 1 + p u 2 * p u 2) * sqrt (p u 0 * p u 0 + p u 1 * p u 1))
        ddist := (p u 0 * vel u 0 + p u 1 * vel u 1 + p u 2 * vel u 2) /
          sqrt (p u 0 * p u 0 + p u 1 * p u 1 + p u 2 * p u 2) } : SphericalPV) := by
    intro f
    filter_upwards [hev] with u hu
    rw [dc62s_off_axis _ hu]
  have hr := sqrt_pos.2 hpos
  have hr2 : sqrt (p t 0 * p t 0 + p t 1 * p t 1) ^ 2 = p t 0 * p t 0 + p t 1 * p t 1 := sq_sqrt hpos.le
  obtain ⟨sd, cd⟩ := hasDerivAt_sin_cos_atan2 d0 d1 hpos
  rw [dc62s_off_axis ⟨p t, vel t⟩ h']
  refine ⟨?_, ?_, ?_, ?_, fun hcut => ?_⟩
  · refine HasDerivAt.congr_of_eventuallyEq ?_ (el (·.lat))
    refine (hasDerivAt_atan2 (dr.sqrt h') d2 (Or.inl hr)).congr_deriv ?_
    simp only
    have e : sqrt (p t 0 * p t 0 + p t 1 * p t 1) * sqrt (p t 0 * p t 0 + p t 1 * p t 1) =
      p t 0 * p t 0 + p t 1 * p t 1 := by rw [← sq]; exact hr2
    simp only [Pi.add_apply, Pi.mul_apply, e]
    rw [div_eq_div_iff hpos2.ne' (by positivity)]
    have hp2 := hpos2.ne'
    generalize sqrt (p t 0 * p t 0 + p t 1 * p t 1) = r at *
    field_simp
    rw [hr2]
    ring
  · refine HasDerivAt.congr_of_eventuallyEq ?_ (el (·.dist))
    refine ((dr.add (d2.mul d2)).sqrt hpos2.ne').congr_deriv ?_
    simp only [Pi.add_apply, Pi.mul_apply]
    rw [div_eq_div_iff (by positivity) (by positivity)]
    ring
  · exact HasDerivAt.congr_of_eventuallyEq sd (el fun s => sin s.long)
  · exact HasDerivAt.congr_of_eventuallyEq cd (el fun s => cos s.long)
  · exact HasDerivAt.congr_of_eventuallyEq (hasDerivAt_atan2 d0 d1 hcut) (el (·.long))

/-- At the origin there is no direction, and `dc62s` takes that of the velocity: the rates are those of a motion straight
    out from the origin. The distance reported is not zero, though, but the speed. -/
theorem C26_null (v : Vec) :
    v = len v • direction (dc62s ⟨0, v⟩).long (dc62s ⟨0, v⟩).lat ∧ (dc62s ⟨0, v⟩).dlong = 0 ∧ (dc62s ⟨0, v⟩).dlat = 0 ∧
    (dc62s ⟨0, v⟩).ddist = len v ∧ (dc62s ⟨0, v⟩).dist = len v := by
  have hl : len v = sqrt (v 0 * v 0 + v 1 * v 1 + v 2 * v 2) := len_eq v
  have hdd : (if sqrt (v 0 * v 0 + v 1 * v 1 + v 2 * v 2) ≠ 0 then
      (v 0 * v 0 + v 1 * v 1 + v 2 * v 2) / sqrt (v 0 * v 0 + v 1 * v 1 + v 2 * v 2) else 0) =
      sqrt (v 0 * v 0 + v 1 * v 1 + v 2 * v 2) := by
    split_ifs with h
    · rw [div_sqrt]
    · exact (not_not.1 h).symm
  by_cases h : v 0 * v 0 + v 1 * v 1 = 0
  · have h0 : v 0 = 0 := by nlinarith [mul_self_nonneg (v 0), mul_self_nonneg (v 1)]
    have h1 : v 1 = 0 := by nlinarith [mul_self_nonneg (v 0), mul_self_nonneg (v 1)]
    have hv : v = ![0, 0, v 2] := by ext i; fin_cases i <;> simp [h0, h1]
    have e : dc62s ⟨0, v⟩ = ⟨0, (dcc2s v).b, len v, 0, 0, len v⟩ := by
      simp only [h, zero_add] at hdd hl
      simp [dc62s, h0, h1, h, dcc2s, hl] at hdd ⊢
      exact hdd
    have ha : (dcc2s v).a = 0 := by
      rw [dcc2s_eq]; simp [h0, h1, atan2_zero_zero]
    rw [e]
    refine ⟨?_, rfl, rfl, rfl, rfl⟩
    have := (C25_dcc2s v).1
    rwa [ha] at this
  · have e : dc62s ⟨0, v⟩ = ⟨(dcc2s v).a, (dcc2s v).b, len v, 0, 0, len v⟩ := by
      rw [dcc2s_eq, hl]
      have hx : v 1 * v 0 = v 0 * v 1 := mul_comm _ _
      have hz : v 2 * (v 0 * v 0 + v 1 * v 1) - v 2 * (v 0 * v 0 + v 1 * v 1) = 0 := sub_self _
      simp [dc62s, h, hx, hz] at hdd ⊢
      exact hdd
    rw [e]
    exact ⟨(C25_dcc2s v).1, rfl, rfl, rfl, rfl⟩

/-- On the polar axis away from the origin: longitude and its rate are zero by convention, the latitude that of the pole, and
    the distance and its rate are right. -/
theorem C26_axis (z : ℝ) (v : Vec) (hz : z ≠ 0) :
    (dc62s ⟨![0, 0, z], v⟩).long = 0 ∧ (dc62s ⟨![0, 0, z], v⟩).lat = (if 0 < z then π / 2 else -(π / 2)) ∧
    (dc62s ⟨![0, 0, z], v⟩).dist = |z| ∧ (dc62s ⟨![0, 0, z], v⟩).ddist = (if 0 < z then v 2 else -v 2) ∧
    (dc62s ⟨![0, 0, z], v⟩).dlong = 0 ∧ (dc62s ⟨![0, 0, z], v⟩).dlat = 0 := by
  have hs : sqrt (z * z) = |z| := sqrt_mul_self_eq_abs z
  simp [dc62s, hz, hs]
  by_cases h : 0 < z
  · rw [if_pos h, if_pos h, abs_of_pos h]
    exact ⟨atan2_unique h (by linarith [pi_pos]) (by linarith [pi_pos]) (by simp) (by simp), by field_simp⟩
  · have hn : z < 0 := lt_of_le_of_ne (not_lt.1 h) hz
    rw [if_neg h, if_neg h, abs_of_neg hn]
    exact ⟨atan2_unique (r := -z) (by linarith) (by linarith [pi_pos]) (by linarith [pi_pos]) (by simp) (by simp), by field_simp⟩

example : ∃ z : ℝ, z ≠ 0 := ⟨-2, by norm_num⟩

/-! ### C27 -/

theorem dsepv_eq (u v : Vec) : dsepv u v = atan2 (sqrt ((u ⨯₃ v) ⬝ᵥ (u ⨯₃ v))) (u ⬝ᵥ v) := by
  unfold dsepv dvn
  simp only [acc3_eq, dvxv_eq, dvdv_eq]
  split_ifs with h
  · rfl
  · push Not at h
    have h1 := h.1
    have : sqrt ((u ⨯₃ v) ⬝ᵥ (u ⨯₃ v)) = 0 := h.1
    rw [this, h.2, atan2_zero_zero]

theorem dot_self_nonneg (u : Vec) : 0 ≤ u ⬝ᵥ u := by
  simp only [dotProduct, Fin.sum_univ_three]
  nlinarith [mul_self_nonneg (u 0), mul_self_nonneg (u 1), mul_self_nonneg (u 2)]

theorem norm_toLp (u : Vec) : ‖(WithLp.toLp 2 u : EuclideanSpace ℝ (Fin 3))‖ = sqrt (u ⬝ᵥ u) := by
  rw [EuclideanSpace.norm_eq]; congr 1
  simp [dotProduct, Fin.sum_univ_three, sq]

theorem inner_toLp (u v : Vec) :
    inner ℝ (WithLp.toLp 2 u : EuclideanSpace ℝ (Fin 3)) (WithLp.toLp 2 v) = u ⬝ᵥ v := by
  simp [PiLp.inner_apply, dotProduct, mul_comm]

/-- Cosine and sine of the separation of two unit vectors. -/
theorem sep_unit {u v : Vec} (hu : u ⬝ᵥ u = 1) (hv : v ⬝ᵥ v = 1) :
    cos (atan2 (sqrt ((u ⨯₃ v) ⬝ᵥ (u ⨯₃ v))) (u ⬝ᵥ v)) = u ⬝ᵥ v ∧
    sin (atan2 (sqrt ((u ⨯₃ v) ⬝ᵥ (u ⨯₃ v))) (u ⬝ᵥ v)) = sqrt ((u ⨯₃ v) ⬝ᵥ (u ⨯₃ v)) := by
  apply cos_atan2_of_sq
  rw [sq_sqrt (dot_self_nonneg _), cross_dot_cross, hu, hv, dotProduct_comm v u]; ring

theorem unit_eq_of_dot {u v : Vec} (hu : u ⬝ᵥ u = 1) (hv : v ⬝ᵥ v = 1) (h : u ⬝ᵥ v = 1) : u = v := by
  have : (u - v) ⬝ᵥ (u - v) = 0 := by
    simp only [sub_dotProduct, dotProduct_sub, hu, hv, h, dotProduct_comm v u]; ring
  exact sub_eq_zero.1 (dotProduct_self_eq_zero.1 this)

/-- The components of the second direction along north and east at the first, as computed by `dbear`. -/
theorem dbear_coords (s t : Spherical) : ∃ x y : ℝ, x = direction t.a t.b ⬝ᵥ north s.a s.b ∧
    y = direction t.a t.b ⬝ᵥ east s.a ∧ dbear s t = atan2 y x ∧
    direction t.a t.b = (direction s.a s.b ⬝ᵥ direction t.a t.b) • direction s.a s.b + x • north s.a s.b +
      y • east s.a := by
  refine ⟨_, _, rfl, rfl, ?_, ?_⟩
  · unfold dbear
    simp only [direction_eq, north_eq, east_eq, dotProduct, Fin.sum_univ_three, cons_val_zero, cons_val_one, cons_val,
      sin_sub, cos_sub]
    split_ifs with h
    · congr 1 <;> ring
    · push Not at h
      conv_lhs => rw [← atan2_zero_zero]
      congr 1
      · linear_combination -h.2
      · linear_combination -h.1
  · have hA := sin_sq_add_cos_sq s.a
    have hB := sin_sq_add_cos_sq s.b
    simp only [direction_eq, north_eq, east_eq, dotProduct, Fin.sum_univ_three]
    generalize cos s.a = ca at *
    generalize sin s.a = sa at *
    generalize cos s.b = cb at *
    generalize sin s.b = sb at *
    generalize cos t.a * cos t.b = p at *
    generalize sin t.a * cos t.b = q at *
    generalize sin t.b = r at *
    funext i
    fin_cases i <;> simp <;> grind

/-- `dsepv` is the angle between two non-null vectors. -/
theorem C27_dsepv_angle (u v : Vec) (hu : u ≠ 0) (hv : v ≠ 0) : dsepv u v = angleBetween u v := by
  rw [dsepv_eq]
  have hl : (u ⬝ᵥ v) * (u ⬝ᵥ v) + (u ⨯₃ v) ⬝ᵥ (u ⨯₃ v) = (u ⬝ᵥ u) * (v ⬝ᵥ v) := by
    rw [cross_dot_cross, dotProduct_comm v u]; ring
  have hn : 0 ≤ (u ⨯₃ v) ⬝ᵥ (u ⨯₃ v) := by
    simp only [dotProduct, Fin.sum_univ_three]
    nlinarith [mul_self_nonneg ((u ⨯₃ v) 0), mul_self_nonneg ((u ⨯₃ v) 1), mul_self_nonneg ((u ⨯₃ v) 2)]
  have hc := polar_cos (sqrt ((u ⨯₃ v) ⬝ᵥ (u ⨯₃ v))) (u ⬝ᵥ v)
  rw [mul_self_sqrt hn, hl] at hc
  have hr := atan2_nonneg (y := sqrt ((u ⨯₃ v) ⬝ᵥ (u ⨯₃ v))) (x := u ⬝ᵥ v) (sqrt_nonneg _)
  have hr2 := (atan2_mem (sqrt ((u ⨯₃ v) ⬝ᵥ (u ⨯₃ v))) (u ⬝ᵥ v)).2
  rw [← arccos_cos hr hr2]
  unfold angleBetween InnerProductGeometry.angle
  congr 1
  have hu' : 0 < u ⬝ᵥ u := lt_of_le_of_ne (dot_self_nonneg u) fun h => hu (dotProduct_self_eq_zero.1 h.symm)
  have hv' : 0 < v ⬝ᵥ v := lt_of_le_of_ne (dot_self_nonneg v) fun h => hv (dotProduct_self_eq_zero.1 h.symm)
  rw [norm_toLp, norm_toLp, inner_toLp, ← sqrt_mul hu'.le, eq_div_iff (sqrt_pos.2 (mul_pos hu' hv')).ne', mul_comm]
  exact hc

/-- Symmetric, between 0 and π, zero if either vector is null. -/
theorem C27_symmetric_range (u v : Vec) :
    dsepv u v = dsepv v u ∧ 0 ≤ dsepv u v ∧ dsepv u v ≤ π ∧ dsepv u 0 = 0 ∧ dsepv 0 v = 0 := by
  simp only [dsepv_eq]
  refine ⟨?_, atan2_nonneg (sqrt_nonneg _), (atan2_mem _ _).2, ?_, ?_⟩
  · rw [dotProduct_comm v u, ← cross_anticomm v u, neg_dotProduct, dotProduct_neg, neg_neg]
  · simp [atan2_zero_zero]
  · simp [atan2_zero_zero]

/-- The lengths do not matter; parallel vectors are at 0 and opposite ones at π. -/
theorem C27_scale (u v : Vec) (hu : u ≠ 0) (hv : v ≠ 0) (r s : ℝ) (hr : 0 < r) (hs : 0 < s) :
    dsepv (r • u) (s • v) = dsepv u v ∧ dsepv u (s • u) = 0 ∧ dsepv u (-s • u) = π := by
  have n : ∀ (r : ℝ) (u : Vec), 0 < r → u ≠ 0 → r • u ≠ 0 := fun r u hr hu => smul_ne_zero hr.ne' hu
  rw [C27_dsepv_angle _ _ (n r u hr hu) (n s v hs hv), C27_dsepv_angle _ _ hu hv,
    C27_dsepv_angle _ _ hu (n s u hs hu), C27_dsepv_angle _ _ hu (smul_ne_zero (neg_ne_zero.2 hs.ne') hu)]
  have hu' : (WithLp.toLp 2 u : EuclideanSpace ℝ (Fin 3)) ≠ 0 := by simpa using hu
  simp only [angleBetween, WithLp.toLp_smul]
  refine ⟨?_, ?_, ?_⟩
  · rw [InnerProductGeometry.angle_smul_left_of_pos _ _ hr, InnerProductGeometry.angle_smul_right_of_pos _ _ hs]
  · rw [InnerProductGeometry.angle_smul_right_of_pos _ _ hs]
    exact InnerProductGeometry.angle_self hu'
  · rw [InnerProductGeometry.angle_smul_right_of_neg _ _ (by linarith)]
    exact InnerProductGeometry.angle_self_neg_of_nonzero hu'

/-- The triangle inequality. -/
theorem C27_triangle (u v w : Vec) (hu : u ≠ 0) (hv : v ≠ 0) (hw : w ≠ 0) :
    dsepv u w ≤ dsepv u v + dsepv v w := by
  rw [C27_dsepv_angle _ _ hu hw, C27_dsepv_angle _ _ hu hv, C27_dsepv_angle _ _ hv hw]
  exact InnerProductGeometry.angle_le_angle_add_angle _ _ _

example : (![1, 2, 3] : Vec) ≠ 0 ∧ (![0, 0, 1] : Vec) ≠ 0 ∧ (![-1, 0, 5] : Vec) ≠ 0 := by
  refine ⟨fun h => ?_, fun h => ?_, fun h => ?_⟩ <;> simpa using congrFun h 2

theorem direction_ne_zero (a b : ℝ) : direction a b ≠ 0 := fun h => by
  have := direction_unit a b; rw [h] at this; simp at this

/-- `dsep` is the angle between the two directions, and so a metric on the sphere. -/
theorem C27_dsep (s t w : Spherical) :
    dsep s t = angleBetween (direction s.a s.b) (direction t.a t.b) ∧ 0 ≤ dsep s t ∧ dsep s t ≤ π ∧
    dsep s t = dsep t s ∧ dsep s w ≤ dsep s t + dsep t w ∧
    (dsep s t = 0 ↔ direction s.a s.b = direction t.a t.b) := by
  simp only [dsep, dcs2c_eq]
  have := C27_symmetric_range (direction s.a s.b) (direction t.a t.b)
  refine ⟨C27_dsepv_angle _ _ (direction_ne_zero _ _) (direction_ne_zero _ _), this.2.1, this.2.2.1, this.1,
    C27_triangle _ _ _ (direction_ne_zero _ _) (direction_ne_zero _ _) (direction_ne_zero _ _), ?_⟩
  rw [dsepv_eq]
  obtain ⟨hc, hs⟩ := sep_unit (direction_unit s.a s.b) (direction_unit t.a t.b)
  constructor
  · intro h
    rw [h, cos_zero] at hc
    exact unit_eq_of_dot (direction_unit _ _) (direction_unit _ _) hc.symm
  · intro h
    rw [h, cross_self]; simp only [dotProduct_zero, sqrt_zero]
    exact atan2_zero_of_nonneg (by rw [direction_unit]; norm_num)

/-! ### C28 -/

/-- `dbear` is the bearing of the second point from the first: leaving the first point along the great circle
    whose tangent is `cos θ` of north and `sin θ` of east, the second point is reached after `dsep`.  The bearing
    lies in `(-π, π]`; coincident points give zero. -/
theorem C28_dbear (s t : Spherical) :
    direction t.a t.b = cos (dsep s t) • direction s.a s.b +
      sin (dsep s t) • (cos (dbear s t) • north s.a s.b + sin (dbear s t) • east s.a) ∧
    -π < dbear s t ∧ dbear s t ≤ π ∧ (direction t.a t.b = direction s.a s.b → dbear s t = 0) := by
  obtain ⟨x, y, hx, hy, hb, hd⟩ := dbear_coords s t
  obtain ⟨hc, hs⟩ := sep_unit (direction_unit s.a s.b) (direction_unit t.a t.b)
  have hsep : dsep s t = atan2 (sqrt ((direction s.a s.b ⨯₃ direction t.a t.b) ⬝ᵥ
    (direction s.a s.b ⨯₃ direction t.a t.b))) (direction s.a s.b ⬝ᵥ direction t.a t.b) := by
    rw [dsep, dcs2c_eq, dcs2c_eq, dsepv_eq]
  rw [← hsep] at hc hs
  have hxy : sqrt (x * x + y * y) = sin (dsep s t) := by
    rw [hs, cross_dot_cross, direction_unit, direction_unit]
    congr 1
    have e := congrArg (fun w => direction t.a t.b ⬝ᵥ w) hd
    simp only [direction_unit, dotProduct_add, dotProduct_smul, ← hx, ← hy, smul_eq_mul] at e
    linear_combination -e
  have p1 := polar_cos y x
  have p2 := polar_sin y x
  rw [hxy] at p1 p2
  refine ⟨?_, ?_, ?_, ?_⟩
  · rw [hd, hc, hb, smul_add, smul_smul, smul_smul, p1, p2, add_assoc]
  · rw [hb]; exact (atan2_mem _ _).1
  · rw [hb]; exact (atan2_mem _ _).2
  · intro h
    have hx0 : x = 0 := by
      rw [hx, h, direction_eq, north_eq]; simp [dotProduct, Fin.sum_univ_three]
      linear_combination -(cos s.b * sin s.b) * sin_sq_add_cos_sq s.a
    have hy0 : y = 0 := by
      rw [hy, h, direction_eq, east_eq]; simp [dotProduct, Fin.sum_univ_three]; ring
    rw [hb, hx0, hy0, atan2_zero_zero]

/-- A point due north (same longitude, larger latitude, up to the pole) has bearing zero, and a point close by on
    the east side has a bearing between 0 and π. -/
theorem C28_dbear_sense (s t : Spherical) :
    (t.a = s.a → |s.b| ≤ π / 2 → |t.b| ≤ π / 2 → s.b < t.b → dbear s t = 0) ∧
    (|t.b| < π / 2 → 0 < t.a - s.a → t.a - s.a < π → 0 < dbear s t ∧ dbear s t < π) := by
  constructor
  · intro ha hs ht hst
    unfold dbear
    simp only [ha, sub_self, sin_zero, cos_zero, zero_mul, mul_one]
    split_ifs
    · apply atan2_zero_of_nonneg
      rw [← sin_sub]
      have := abs_le.1 hs; have := abs_le.1 ht
      exact sin_nonneg_of_nonneg_of_le_pi (by linarith) (by linarith)
    · rfl
  · intro ht h1 h2
    unfold dbear
    have hy : 0 < sin (t.a - s.a) * cos t.b := mul_pos (sin_pos_of_pos_of_lt_pi h1 h2) (cos_pos_of_abs ht)
    simp only [ne_eq, hy.ne', not_false_eq_true, or_true, if_true]
    constructor
    · refine lt_of_le_of_ne (atan2_nonneg hy.le) fun h => ?_
      have := sin_atan2 (sin (t.a - s.a) * cos t.b)
        (sin t.b * cos s.b - cos t.b * sin s.b * cos (t.a - s.a))
      rw [← h, sin_zero, mul_zero] at this
      exact hy.ne this
    · refine lt_of_le_of_ne (atan2_mem _ _).2 fun h => ?_
      have := sin_atan2 (sin (t.a - s.a) * cos t.b)
        (sin t.b * cos s.b - cos t.b * sin s.b * cos (t.a - s.a))
      rw [h, sin_pi, mul_zero] at this
      exact hy.ne this

theorem dpav_eq (va vb : Vec) : dpav va vb =
    let length := sqrt (va 0 * va 0 + va 1 * va 1 + va 2 * va 2)
    let x1 := if length ≠ 0 then va 0 / length else va 0
    let y1 := if length ≠ 0 then va 1 / length else va 1
    let z1 := if length ≠ 0 then va 2 / length else va 2
    atan2 (vb 1 * x1 - vb 0 * y1) (vb 2 * (x1 * x1 + y1 * y1) - z1 * (vb 0 * x1 + vb 1 * y1)) := by
  unfold dpav
  dsimp only
  split_ifs with h1 h2 h3 <;> first | rfl | skip
  · rw [h2.1, h2.2, atan2_zero_zero, atan2_zero_of_nonneg zero_le_one]
  · rw [h3.1, h3.2, atan2_zero_zero, atan2_zero_of_nonneg zero_le_one]

/-- `dpav` on vectors of any positive lengths agrees with `dbear`, for every first point strictly between the
    poles. -/
theorem C28_dpav (s t : Spherical) (hs : |s.b| < π / 2) (p q : ℝ) (hp : 0 < p) (hq : 0 < q) :
    dpav (p • dcs2c s) (q • dcs2c t) = dbear s t := by
  have hc := cos_pos_of_abs hs
  have hl : sqrt ((p • dcs2c s) 0 * (p • dcs2c s) 0 + (p • dcs2c s) 1 * (p • dcs2c s) 1 +
      (p • dcs2c s) 2 * (p • dcs2c s) 2) = p := by
    rw [show (p • dcs2c s) 0 * (p • dcs2c s) 0 + (p • dcs2c s) 1 * (p • dcs2c s) 1 +
      (p • dcs2c s) 2 * (p • dcs2c s) 2 = p ^ 2 * (dcs2c s ⬝ᵥ dcs2c s) by
        simp [dotProduct, Fin.sum_univ_three]; ring, (C25_dcs2c s).2, mul_one, sqrt_sq hp.le]
  obtain ⟨x, y, hx, hy, hb, -⟩ := dbear_coords s t
  rw [hb, ← atan2_mul (r := q * cos s.b) (mul_pos hq hc)]
  have hA := sin_sq_add_cos_sq s.a
  have e1 : ∀ i, (p • dcs2c s) i / p = dcs2c s i := fun i => by simp [hp.ne']
  rw [dpav_eq]
  simp only [hl, ne_eq, hp.ne', not_false_eq_true, if_true, e1]
  rw [hx, hy, direction_eq, north_eq, east_eq]
  congr 1
  · simp [dcs2c, dotProduct, Fin.sum_univ_three]; ring
  · simp [dcs2c, dotProduct, Fin.sum_univ_three]
    linear_combination (q * sin t.b * cos s.b ^ 2) * hA

example : |(⟨1, 0.5⟩ : Spherical).b| < π / 2 := by
  have := pi_gt_three
  rw [abs_of_pos] <;> norm_num; linarith

/-- Exactly at a pole the two differ: `dpav` returns zero whatever the second point, `dbear` does not. -/
theorem C28_pole : (∀ v, dpav (dcs2c ⟨0, π / 2⟩) v = 0) ∧ dbear ⟨0, π / 2⟩ ⟨0, 0⟩ = π := by
  constructor
  · intro v
    rw [dpav_eq]
    simp [dcs2c, atan2_zero_zero]
  · simp only [dbear, cos_zero, sin_zero, cos_pi_div_two, sin_pi_div_two, sub_self]
    norm_num
    exact atan2_unique one_pos (by linarith [pi_pos]) le_rfl (by simp) (by simp)

end Sla.Props
