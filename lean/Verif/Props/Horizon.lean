import Verif.Props.Spherical

/-
C29 equatorial/horizon conversion, C30 zenith distance, C31 altaz rates, C32 parallactic angle.

In the frame used here the x axis points to the equator on the observer's meridian, y points east and z to the
north pole.  A star at hour angle `ha` and declination `dec` is at longitude `-ha`; the zenith of an observer at
latitude `phi` is `direction 0 phi`, the north point of the horizon is `north 0 phi`, the east point `east 0`.
-/
namespace Sla.Props
open Sla Sla.Spec Real Matrix

/-- The direction with the given azimuth (north through east) and elevation, for an observer at latitude `phi`. -/
noncomputable def horizonDirection (az el phi : ℝ) : Vec :=
  (cos el * cos az) • north 0 phi + (cos el * sin az) • east 0 + sin el • direction 0 phi

theorem horizonDirection_eq (az el phi : ℝ) : horizonDirection az el phi =
    ![-(cos el * cos az * sin phi) + sin el * cos phi, cos el * sin az, cos el * cos az * cos phi + sin el * sin phi] := by
  rw [horizonDirection, direction_eq, north_eq, east_eq]
  funext i; fin_cases i <;> simp

theorem star_eq (ha dec : ℝ) : direction (-ha) dec = ![cos ha * cos dec, -(sin ha * cos dec), sin dec] := by
  rw [direction_eq]; simp

/-- North, east and up components of the star, as computed by the code. -/
noncomputable def hx (h d p : ℝ) : ℝ := -cos h * cos d * sin p + sin d * cos p
noncomputable def hy (h d : ℝ) : ℝ := -sin h * cos d
noncomputable def hz (h d p : ℝ) : ℝ := cos h * cos d * cos p + sin d * sin p

theorem h_unit (h d p : ℝ) : hx h d p * hx h d p + hy h d * hy h d + hz h d p * hz h d p = 1 := by
  have h1 := sin_sq_add_cos_sq h
  have h2 := sin_sq_add_cos_sq d
  have h3 := sin_sq_add_cos_sq p
  unfold hx hy hz
  grind

theorem h_rsq (h d p : ℝ) : 0 ≤ hx h d p * hx h d p + hy h d * hy h d := by
  nlinarith [mul_self_nonneg (hx h d p), mul_self_nonneg (hy h d)]

theorem star_horizon (h d p A E : ℝ) (e1 : cos E * cos A = hx h d p) (e2 : cos E * sin A = hy h d)
    (e3 : sin E = hz h d p) : direction (-h) d = horizonDirection A E p := by
  have h3 := sin_sq_add_cos_sq p
  rw [star_eq, horizonDirection_eq, e1, e2, e3]
  unfold hx hy hz
  funext i
  fin_cases i <;> simp <;> grind

/-- Elevation: sine and cosine. -/
theorem el_facts (h d p : ℝ) :
    let r := sqrt (hx h d p * hx h d p + hy h d * hy h d)
    cos (atan2 (hz h d p) r) = r ∧ sin (atan2 (hz h d p) r) = hz h d p := by
  intro r
  apply cos_atan2_of_sq
  rw [sq_sqrt (h_rsq h d p)]
  have := h_unit h d p
  linarith [sq (hz h d p)]

/-- Azimuth of the model, before and after wrapping. -/
noncomputable def wrapAz (y x : ℝ) : ℝ := if atan2 y x < 0 then atan2 y x + 2 * π else atan2 y x

theorem wrapAz_facts (y x : ℝ) : cos (wrapAz y x) = cos (atan2 y x) ∧ sin (wrapAz y x) = sin (atan2 y x) ∧
    0 ≤ wrapAz y x ∧ wrapAz y x < 2 * π := by
  unfold wrapAz
  have h := atan2_mem y x
  split_ifs with hn
  · exact ⟨cos_add_two_pi _, sin_add_two_pi _, by linarith, by linarith⟩
  · exact ⟨rfl, rfl, by linarith, by linarith [pi_pos]⟩

theorem de2h_eq (dir : Spherical) (phi : ℝ) : de2h dir phi =
    ⟨wrapAz (hy dir.a dir.b) (hx dir.a dir.b phi),
      atan2 (hz dir.a dir.b phi)
        (sqrt (hx dir.a dir.b phi * hx dir.a dir.b phi + hy dir.a dir.b * hy dir.a dir.b))⟩ := by
  have key : ∀ x y z : ℝ, (AzEl.mk (if sqrt (x * x + y * y) = 0 then 0 else
      if atan2 y x < 0 then atan2 y x + 2 * π else atan2 y x) z) = ⟨wrapAz y x, z⟩ := by
    intro x y z
    congr 1
    split_ifs with h0
    · obtain ⟨rfl, rfl⟩ := sqrt_sumsq_eq_zero.1 h0
      simp [wrapAz, atan2_zero_zero]
    · simp [wrapAz, *]
    · simp [wrapAz, *]
  exact key _ _ _

theorem dh2e_eq (az el phi : ℝ) : dh2e az el phi =
    ⟨atan2 (hy az el) (hx az el phi), atan2 (hz az el phi)
      (sqrt (hx az el phi * hx az el phi + hy az el * hy az el))⟩ := by
  have key : ∀ x y z : ℝ, ({ a := if sqrt (x * x + y * y) = 0 then 0 else atan2 y x, b := z } : Spherical) =
      ⟨atan2 y x, z⟩ := by
    intro x y z
    congr 1
    split_ifs with h0
    · obtain ⟨rfl, rfl⟩ := sqrt_sumsq_eq_zero.1 h0
      simp [atan2_zero_zero]
    · rfl
  exact key _ _ _

/-! ### C29 -/

/-- `de2h`: the azimuth and elevation point to the star; azimuth in `[0, 2π)`, elevation in `[-π/2, π/2]`. -/
theorem C29_de2h (dir : Spherical) (phi : ℝ) :
    direction (-dir.a) dir.b = horizonDirection (de2h dir phi).az (de2h dir phi).el phi ∧
    0 ≤ (de2h dir phi).az ∧ (de2h dir phi).az < 2 * π ∧ |(de2h dir phi).el| ≤ π / 2 := by
  rw [de2h_eq]
  obtain ⟨c, s⟩ := el_facts dir.a dir.b phi
  obtain ⟨w1, w2, w3, w4⟩ := wrapAz_facts (hy dir.a dir.b) (hx dir.a dir.b phi)
  refine ⟨star_horizon _ _ _ _ _ ?_ ?_ s, w3, w4, lat_range _ _ _⟩
  · rw [c, w1, polar_cos]
  · rw [c, w2, polar_sin]

/-- `dh2e`: the hour angle and declination point to the given azimuth and elevation; hour angle in `(-π, π]`,
    declination in `[-π/2, π/2]`. -/
theorem C29_dh2e (az el phi : ℝ) :
    direction (-(dh2e az el phi).a) (dh2e az el phi).b = horizonDirection az el phi ∧
    -π < (dh2e az el phi).a ∧ (dh2e az el phi).a ≤ π ∧ |(dh2e az el phi).b| ≤ π / 2 := by
  rw [dh2e_eq]
  obtain ⟨c, s⟩ := el_facts az el phi
  refine ⟨?_, (atan2_mem _ _).1, (atan2_mem _ _).2, lat_range _ _ _⟩
  rw [star_eq, horizonDirection_eq]
  simp only
  rw [c, s, mul_comm (cos _), mul_comm (sin _), polar_cos, polar_sin]
  unfold hx hy hz
  funext i
  fin_cases i <;> simp <;> first | (left; ring) | ring

/-- Directions off the poles determine hour angle and declination. -/
theorem star_inj {a b a' b' : ℝ} (h1 : -π < a) (h2 : a ≤ π) (hb : |b| < π / 2) (h1' : -π < a') (h2' : a' ≤ π)
    (hb' : |b'| ≤ π / 2) (h : direction (-a) b = direction (-a') b') : a' = a ∧ b' = b := by
  rw [star_eq, star_eq] at h
  have e0 := congrFun h 0
  have e1 := congrFun h 1
  have e2 := congrFun h 2
  simp only [cons_val_zero, cons_val_one, cons_val] at e0 e1 e2
  have hc := cos_pos_of_abs hb
  have hbb : b = b' := by
    have u := abs_le.1 hb.le
    have u' := abs_le.1 hb'
    exact injOn_sin ⟨by linarith, by linarith⟩ ⟨by linarith, by linarith⟩ e2
  refine ⟨?_, hbb.symm⟩
  subst hbb
  have c : cos a = cos a' := mul_right_cancel₀ hc.ne' e0
  have s : sin a = sin a' := mul_right_cancel₀ hc.ne' (by linarith)
  rw [← atan2_sin_cos h1 h2, ← atan2_sin_cos h1' h2', c, s]

/-- To the horizon system and back. -/
theorem C29_round_trip (dir : Spherical) (phi : ℝ) (h1 : -π < dir.a) (h2 : dir.a ≤ π) (hb : |dir.b| < π / 2) :
    dh2e (de2h dir phi).az (de2h dir phi).el phi = dir := by
  obtain ⟨e, -, -, -⟩ := C29_de2h dir phi
  obtain ⟨e', r1, r2, r3⟩ := C29_dh2e (de2h dir phi).az (de2h dir phi).el phi
  obtain ⟨x, y⟩ := star_inj h1 h2 hb r1 r2 r3 (e.trans e'.symm)
  exact Spherical.ext x y

example : -π < (⟨3, 1⟩ : Spherical).a ∧ (⟨3, 1⟩ : Spherical).a ≤ π ∧ |(⟨3, 1⟩ : Spherical).b| < π / 2 := by
  have := pi_gt_three
  refine ⟨by simp; linarith, by simp; linarith, by simp; linarith⟩

/-- Directions off the zenith determine azimuth and elevation. -/
theorem horizon_inj {a b a' b' p : ℝ} (h1 : 0 ≤ a) (h2 : a < 2 * π) (hb : |b| < π / 2) (h1' : 0 ≤ a')
    (h2' : a' < 2 * π) (hb' : |b'| ≤ π / 2) (h : horizonDirection a b p = horizonDirection a' b' p) :
    a' = a ∧ b' = b := by
  rw [horizonDirection_eq, horizonDirection_eq] at h
  have e0 := congrFun h 0
  have e1 := congrFun h 1
  have e2 := congrFun h 2
  simp only [cons_val_zero, cons_val_one, cons_val] at e0 e1 e2
  have hp := sin_sq_add_cos_sq p
  have hc := cos_pos_of_abs hb
  have hs : sin b = sin b' := by
    linear_combination cos p * e0 + sin p * e2 - (sin b - sin b') * hp
  have hcc : cos b * cos a = cos b' * cos a' := by
    linear_combination -sin p * e0 + cos p * e2 - (cos b * cos a - cos b' * cos a') * hp
  have hbb : b = b' := by
    have u := abs_le.1 hb.le
    have u' := abs_le.1 hb'
    exact injOn_sin ⟨by linarith, by linarith⟩ ⟨by linarith, by linarith⟩ hs
  refine ⟨?_, hbb.symm⟩
  subst hbb
  have c : cos a = cos a' := mul_left_cancel₀ hc.ne' hcc
  have s : sin a = sin a' := mul_left_cancel₀ hc.ne' e1
  have e := atan2_sin_cos (a := π - a) (by linarith) (by linarith)
  have e' := atan2_sin_cos (a := π - a') (by linarith) (by linarith)
  rw [sin_pi_sub, cos_pi_sub] at e e'
  rw [c, s] at e
  linarith

/-- To the equatorial system and back. -/
theorem C29_round_trip' (az el phi : ℝ) (h1 : 0 ≤ az) (h2 : az < 2 * π) (hb : |el| < π / 2) :
    de2h (dh2e az el phi) phi = ⟨az, el⟩ := by
  obtain ⟨e, r1, r2, r3⟩ := C29_de2h (dh2e az el phi) phi
  obtain ⟨e', -, -, -⟩ := C29_dh2e az el phi
  obtain ⟨x, y⟩ := horizon_inj h1 h2 hb r1 r2 r3 (e'.symm.trans e)
  exact AzEl.ext x y

example : (0 : ℝ) ≤ 6 ∧ (6 : ℝ) < 2 * π ∧ |(1 : ℝ)| < π / 2 := by
  have := pi_gt_three
  refine ⟨by norm_num, by linarith, by simp; linarith⟩

/-! ### C30 -/

/-- The zenith distance is the angle from the zenith, the complement of the elevation. -/
theorem C30_zd (dir : Spherical) (phi : ℝ) :
    zd dir phi = angleBetween (direction (-dir.a) dir.b) (direction 0 phi) ∧
    zd dir phi = π / 2 - (de2h dir phi).el ∧ 0 ≤ zd dir phi ∧ zd dir phi ≤ π := by
  obtain ⟨c, s⟩ := el_facts dir.a dir.b phi
  have hzd : zd dir phi = atan2 (sqrt (hx dir.a dir.b phi * hx dir.a dir.b phi + hy dir.a dir.b * hy dir.a dir.b))
      (hz dir.a dir.b phi) := by
    unfold zd hx hy hz
    dsimp only
    congr 2
    ring
  have r1 : 0 ≤ zd dir phi := by rw [hzd]; exact atan2_nonneg (sqrt_nonneg _)
  have r2 : zd dir phi ≤ π := by rw [hzd]; exact (atan2_mem _ _).2
  have hcz : cos (zd dir phi) = hz dir.a dir.b phi := by
    rw [hzd]
    refine (cos_atan2_of_sq ?_).1
    rw [sq_sqrt (h_rsq _ _ _)]
    have := h_unit dir.a dir.b phi
    linarith [sq (hz dir.a dir.b phi)]
  have hdot : direction (-dir.a) dir.b ⬝ᵥ direction 0 phi = hz dir.a dir.b phi := by
    rw [star_eq, direction_eq]; simp [dotProduct, Fin.sum_univ_three, hz]
  refine ⟨?_, ?_, r1, r2⟩
  · rw [← arccos_cos r1 r2, hcz, angleBetween, InnerProductGeometry.angle, norm_toLp, norm_toLp, inner_toLp, hdot,
      direction_unit, direction_unit]
    simp
  · have hel := abs_le.1 (C29_de2h dir phi).2.2.2
    have hse : cos (zd dir phi) = cos (π / 2 - (de2h dir phi).el) := by
      rw [hcz, cos_pi_div_two_sub, de2h_eq, s]
    exact injOn_cos ⟨r1, r2⟩ ⟨by linarith, by linarith⟩ hse

/-! ### C31 -/

/-- `altaz` in terms of the components of the star and the clamped `r²`. -/
theorem altaz_eq (h d p : ℝ) : altaz ⟨h, d⟩ p =
    let x := hx h d p
    let y := hy h d
    let z := hz h d p
    let r2 := if x * x + y * y < 1e-30 then 1e-30 else x * x + y * y
    let r := sqrt r2
    let c := cos d * sin p - cos h * (sin d * cos p)
    let s := sin h * cos p
    let p_vel := -x * cos p / r2
    let a_vel := sin p + z * p_vel
    let e_vel := cos p * y / r
    { azimuth := wrapAz y x, az_velocity := a_vel
      az_acceleration := e_vel / r * (z * sin p + (2 - r2) * p_vel)
      elevation := atan2 z (sqrt (x * x + y * y)), el_velocity := e_vel, el_acceleration := -r * p_vel * a_vel
      pangle := if c * c + s * s > 0 then atan2 s c else π - h
      pa_velocity := p_vel, pa_acceleration := e_vel / r * (sin p + 2 * z * p_vel) } := by
  have key : ∀ x y : ℝ, (if (if x * x + y * y = 0 then 0 else atan2 y x) < 0 then
      (if x * x + y * y = 0 then 0 else atan2 y x) + 2 * π else (if x * x + y * y = 0 then 0 else atan2 y x)) =
      wrapAz y x := by
    intro x y
    unfold wrapAz
    by_cases h0 : x * x + y * y = 0
    · obtain ⟨rfl, rfl⟩ := sqrt_sumsq_eq_zero.1 (by rw [h0, sqrt_zero])
      simp [atan2_zero_zero]
    · simp only [h0, if_false]
  have hxe : -(cos h * cos d) * sin p + sin d * cos p = hx h d p := by unfold hx; ring
  have hye : -sin h * cos d = hy h d := rfl
  have hze : cos h * cos d * cos p + sin d * sin p = hz h d p := rfl
  unfold altaz
  dsimp only
  rw [hxe, hye, hze, key]
  have hs : ∀ q : ℝ, (if q < 1e-30 then sqrt 1e-30 else sqrt q) = sqrt (if q < 1e-30 then 1e-30 else q) := by
    intro q; split_ifs <;> rfl
  simp only [hs]

/-- The azimuth and elevation of `altaz` are those of `de2h`. -/
theorem C31_positions (dir : Spherical) (phi : ℝ) :
    (altaz dir phi).azimuth = (de2h dir phi).az ∧ (altaz dir phi).elevation = (de2h dir phi).el := by
  obtain ⟨h, d⟩ := dir
  rw [de2h_eq, altaz_eq]
  exact ⟨rfl, rfl⟩

/-- The mount positions and rates without the clamp. -/
noncomputable def freeMount (h d p : ℝ) : AltazMount :=
  let x := hx h d p
  let y := hy h d
  let z := hz h d p
  let r2 := x * x + y * y
  let p_vel := -x * cos p / r2
  let a_vel := sin p + z * p_vel
  let e_vel := cos p * y / sqrt r2
  { azimuth := wrapAz y x, az_velocity := a_vel
    az_acceleration := e_vel / sqrt r2 * (z * sin p + (2 - r2) * p_vel)
    elevation := atan2 z (sqrt r2), el_velocity := e_vel, el_acceleration := -sqrt r2 * p_vel * a_vel
    pangle := atan2 (sin h * cos p) (cos d * sin p - cos h * (sin d * cos p))
    pa_velocity := p_vel, pa_acceleration := e_vel / sqrt r2 * (sin p + 2 * z * p_vel) }

theorem pa_rsq (h d p : ℝ) : (cos d * sin p - cos h * (sin d * cos p)) * (cos d * sin p - cos h * (sin d * cos p)) +
    sin h * cos p * (sin h * cos p) = hx h d p * hx h d p + hy h d * hy h d := by
  have h1 := sin_sq_add_cos_sq h
  have h2 := sin_sq_add_cos_sq d
  have h3 := sin_sq_add_cos_sq p
  unfold hx hy
  grind

theorem altaz_free {h d p : ℝ} (hh : ¬ hx h d p * hx h d p + hy h d * hy h d < 1e-30) :
    altaz ⟨h, d⟩ p = freeMount h d p := by
  rw [altaz_eq]
  dsimp only
  rw [if_neg hh, if_pos]
  · rfl
  · rw [pa_rsq]
    exact lt_of_lt_of_le (by norm_num) (not_lt.1 hh)

theorem h_deriv (h d p : ℝ) :
    HasDerivAt (fun h => hx h d p) (-(sin p * hy h d)) h ∧
    HasDerivAt (fun h => hy h d) (sin p * hx h d p - cos p * hz h d p) h ∧
    HasDerivAt (fun h => hz h d p) (cos p * hy h d) h := by
  have hp := sin_sq_add_cos_sq p
  unfold hx hy hz
  refine ⟨?_, ?_, ?_⟩
  · refine (((((hasDerivAt_cos h).neg).mul_const (cos d)).mul_const (sin p)).add_const _).congr_deriv ?_
    ring
  · refine (((hasDerivAt_sin h).neg).mul_const (cos d)).congr_deriv ?_
    linear_combination (cos h * cos d) * hp
  · refine ((((hasDerivAt_cos h).mul_const (cos d)).mul_const (cos p)).add_const _).congr_deriv ?_
    ring

/-- Away from the zenith and nadir (outside the 1e-15 radian clamp) the velocities are the derivatives of the
    positions with respect to hour angle, and the accelerations the derivatives of the velocities.  Azimuth and
    parallactic angle jump where they wrap round; their sines and cosines do not. -/
theorem C31_rates (ha dec phi : ℝ) (hz : 1e-30 < cos (altaz ⟨ha, dec⟩ phi).elevation ^ 2) :
    HasDerivAt (fun h => sin (altaz ⟨h, dec⟩ phi).azimuth)
      (cos (altaz ⟨ha, dec⟩ phi).azimuth * (altaz ⟨ha, dec⟩ phi).az_velocity) ha ∧
    HasDerivAt (fun h => cos (altaz ⟨h, dec⟩ phi).azimuth)
      (-sin (altaz ⟨ha, dec⟩ phi).azimuth * (altaz ⟨ha, dec⟩ phi).az_velocity) ha ∧
    HasDerivAt (fun h => (altaz ⟨h, dec⟩ phi).az_velocity) (altaz ⟨ha, dec⟩ phi).az_acceleration ha ∧
    HasDerivAt (fun h => (altaz ⟨h, dec⟩ phi).elevation) (altaz ⟨ha, dec⟩ phi).el_velocity ha ∧
    HasDerivAt (fun h => (altaz ⟨h, dec⟩ phi).el_velocity) (altaz ⟨ha, dec⟩ phi).el_acceleration ha ∧
    HasDerivAt (fun h => sin (altaz ⟨h, dec⟩ phi).pangle)
      (cos (altaz ⟨ha, dec⟩ phi).pangle * (altaz ⟨ha, dec⟩ phi).pa_velocity) ha ∧
    HasDerivAt (fun h => cos (altaz ⟨h, dec⟩ phi).pangle)
      (-sin (altaz ⟨ha, dec⟩ phi).pangle * (altaz ⟨ha, dec⟩ phi).pa_velocity) ha ∧
    HasDerivAt (fun h => (altaz ⟨h, dec⟩ phi).pa_velocity) (altaz ⟨ha, dec⟩ phi).pa_acceleration ha := by
  obtain ⟨dx, dy, dz⟩ := h_deriv ha dec phi
  have hun := h_unit ha dec phi
  have hgt : 1e-30 < hx ha dec phi * hx ha dec phi + hy ha dec * hy ha dec := by
    rw [altaz_eq] at hz
    dsimp only at hz
    rwa [(el_facts ha dec phi).1, sq_sqrt (h_rsq _ _ _)] at hz
  have hpos : 0 < hx ha dec phi * hx ha dec phi + hy ha dec * hy ha dec := lt_trans (by norm_num) hgt
  have dr2 : HasDerivAt (fun h => hx h dec phi * hx h dec phi + hy h dec * hy h dec)
      (-2 * Props.hz ha dec phi * (cos phi * hy ha dec)) ha := by
    refine ((dx.mul dx).add (dy.mul dy)).congr_deriv ?_
    ring
  have hev : ∀ᶠ h in nhds ha, ¬ (hx h dec phi * hx h dec phi + hy h dec * hy h dec < 1e-30) := by
    filter_upwards [dr2.continuousAt.eventually (lt_mem_nhds hgt)] with h hh
    exact not_lt.2 hh.le
  have hng := hev.self_of_nhds
  have dr := dr2.sqrt hpos.ne'
  have hr := sqrt_pos.2 hpos
  have hrr : sqrt (hx ha dec phi * hx ha dec phi + hy ha dec * hy ha dec) ^ 2 =
    hx ha dec phi * hx ha dec phi + hy ha dec * hy ha dec := sq_sqrt hpos.le
  have hcs := fun h => pa_rsq h dec phi
  have el : ∀ f : AltazMount → ℝ, (fun h => f (altaz ⟨h, dec⟩ phi)) =ᶠ[nhds ha] fun h => f (freeMount h dec phi) := by
    intro f
    filter_upwards [hev] with h hh
    rw [altaz_free hh]
  rw [altaz_free hng]
  obtain ⟨as, ac⟩ := hasDerivAt_sin_cos_atan2 dx dy hpos
  have dc : HasDerivAt (fun h => cos dec * sin phi - cos h * (sin dec * cos phi)) (sin ha * (sin dec * cos phi)) ha := by
    refine (((hasDerivAt_cos ha).mul_const (sin dec * cos phi)).const_sub _).congr_deriv ?_
    ring
  have ds : HasDerivAt (fun h => sin h * cos phi) (cos ha * cos phi) ha := (hasDerivAt_sin ha).mul_const _
  obtain ⟨ps, pc⟩ := hasDerivAt_sin_cos_atan2 dc ds (by rw [hcs]; exact hpos)
  have hpv : ((cos dec * sin phi - cos ha * (sin dec * cos phi)) * (cos ha * cos phi) -
      sin ha * cos phi * (sin ha * (sin dec * cos phi))) = -hx ha dec phi * cos phi := by
    have h1 := sin_sq_add_cos_sq ha
    unfold hx
    linear_combination -(sin dec * cos phi ^ 2) * h1
  rw [hcs, hpv] at ps pc
  have hav : (hx ha dec phi * (sin phi * hx ha dec phi - cos phi * Props.hz ha dec phi) -
      hy ha dec * -(sin phi * hy ha dec)) / (hx ha dec phi * hx ha dec phi + hy ha dec * hy ha dec) =
      sin phi + Props.hz ha dec phi * (-hx ha dec phi * cos phi / (hx ha dec phi * hx ha dec phi + hy ha dec * hy ha dec)) := by
    rw [div_eq_iff hpos.ne', add_mul, mul_assoc, div_mul_cancel₀ _ hpos.ne']
    ring
  rw [hav] at as ac
  have dpv := (dx.neg.mul_const (cos phi)).div dr2 hpos.ne'
  refine ⟨?_, ?_, ?_, ?_, ?_, ?_, ?_, ?_⟩
  · refine HasDerivAt.congr_of_eventuallyEq ?_ (el fun m => sin m.azimuth)
    simp only [freeMount]
    simpa only [(wrapAz_facts _ _).1, (wrapAz_facts _ _).2.1] using as
  · refine HasDerivAt.congr_of_eventuallyEq ?_ (el fun m => cos m.azimuth)
    simp only [freeMount]
    simpa only [(wrapAz_facts _ _).1, (wrapAz_facts _ _).2.1] using ac
  · refine HasDerivAt.congr_of_eventuallyEq ?_ (el (·.az_velocity))
    refine ((dz.mul dpv).const_add _).congr_deriv ?_
    simp only [freeMount, Pi.neg_apply, Pi.div_apply]
    clear dpv dr as ac ps pc dc ds hcs hpv hav hev hng el dx dy dz dr2 hgt hz
    generalize sqrt (hx ha dec phi * hx ha dec phi + hy ha dec * hy ha dec) = r at *
    generalize hx ha dec phi = x at *
    generalize hy ha dec = y at *
    generalize Props.hz ha dec phi = z at *
    generalize sin phi = sp at *
    generalize cos phi = cp at *
    have hz2 : z ^ 2 = 1 - r ^ 2 := by rw [hrr]; linarith [sq z]
    rw [← hrr]
    field_simp
    grind
  · refine HasDerivAt.congr_of_eventuallyEq ?_ (el (·.elevation))
    refine (hasDerivAt_atan2 dr dz (Or.inl hr)).congr_deriv ?_
    simp only [freeMount, Pi.neg_apply, Pi.div_apply]
    clear dpv dr as ac ps pc dc ds hcs hpv hav hev hng el dx dy dz dr2 hgt hz
    generalize sqrt (hx ha dec phi * hx ha dec phi + hy ha dec * hy ha dec) = r at *
    generalize hx ha dec phi = x at *
    generalize hy ha dec = y at *
    generalize Props.hz ha dec phi = z at *
    generalize sin phi = sp at *
    generalize cos phi = cp at *
    have hz2 : z ^ 2 = 1 - r ^ 2 := by rw [hrr]; linarith [sq z]
    rw [show r * r + z * z = 1 by linarith [sq z, sq r], div_one]
    field_simp
    grind
  · refine HasDerivAt.congr_of_eventuallyEq ?_ (el (·.el_velocity))
    refine ((dy.const_mul (cos phi)).div dr hr.ne').congr_deriv ?_
    simp only [freeMount, Pi.neg_apply, Pi.div_apply]
    clear dpv dr as ac ps pc dc ds hcs hpv hav hev hng el dx dy dz dr2 hgt hz
    generalize sqrt (hx ha dec phi * hx ha dec phi + hy ha dec * hy ha dec) = r at *
    generalize hx ha dec phi = x at *
    generalize hy ha dec = y at *
    generalize Props.hz ha dec phi = z at *
    generalize sin phi = sp at *
    generalize cos phi = cp at *
    have hz2 : z ^ 2 = 1 - r ^ 2 := by rw [hrr]; linarith [sq z]
    rw [← hrr]
    field_simp
    grind
  · refine HasDerivAt.congr_of_eventuallyEq ?_ (el fun m => sin m.pangle)
    exact ps
  · refine HasDerivAt.congr_of_eventuallyEq ?_ (el fun m => cos m.pangle)
    exact pc
  · refine HasDerivAt.congr_of_eventuallyEq ?_ (el (·.pa_velocity))
    refine dpv.congr_deriv ?_
    simp only [freeMount, Pi.neg_apply, Pi.div_apply]
    clear dpv dr as ac ps pc dc ds hcs hpv hav hev hng el dx dy dz dr2 hgt hz
    generalize sqrt (hx ha dec phi * hx ha dec phi + hy ha dec * hy ha dec) = r at *
    generalize hx ha dec phi = x at *
    generalize hy ha dec = y at *
    generalize Props.hz ha dec phi = z at *
    generalize sin phi = sp at *
    generalize cos phi = cp at *
    have hz2 : z ^ 2 = 1 - r ^ 2 := by rw [hrr]; linarith [sq z]
    rw [← hrr]
    field_simp
    grind

example : (1e-30 : ℝ) < cos (altaz ⟨0, 0⟩ 0.5).elevation ^ 2 := by
  rw [altaz_eq]
  dsimp only
  rw [(el_facts 0 0 0.5).1, sq_sqrt (h_rsq _ _ _)]
  simp only [hx, hy, cos_zero, sin_zero]
  have h1 : (0.5 : ℝ) - 0.5 ^ 3 / 6 < sin 0.5 := sin_gt_sub_cube (by norm_num)
  have : (0.4 : ℝ) < sin 0.5 := lt_trans (by norm_num) h1
  nlinarith


/-! ### C32 -/

/-- The parallactic angle is the bearing of the zenith from the star. -/
theorem C32_pa (dir : Spherical) (phi : ℝ) : pa dir phi = dbear ⟨-dir.a, dir.b⟩ ⟨0, phi⟩ := by
  unfold pa dbear
  simp only [sub_neg_eq_add, zero_add]
  by_cases h : cos phi * sin dir.a = 0 ∧
      sin phi * cos dir.b - cos phi * sin dir.b * cos dir.a = 0
  · have h1 : sin dir.a * cos phi = 0 := by rw [mul_comm]; exact h.1
    simp only [h.1, h.2, h1, and_self, if_true, ne_eq, not_true_eq_false, or_self, if_false]
    exact atan2_zero_of_nonneg zero_le_one
  · rw [if_neg h, if_pos, mul_comm (sin dir.a)]
    rw [mul_comm (sin dir.a)]
    by_contra hn
    push Not at hn
    exact h ⟨hn.2, hn.1⟩

/-- It equals the parallactic angle of `altaz` except exactly at the zenith or nadir. -/
theorem C32_altaz (dir : Spherical) (phi : ℝ) (hz : cos (altaz dir phi).elevation ≠ 0) :
    (altaz dir phi).pangle = pa dir phi := by
  obtain ⟨h, d⟩ := dir
  rw [altaz_eq] at hz ⊢
  dsimp only at hz ⊢
  rw [(el_facts h d phi).1] at hz
  have hpos : 0 < hx h d phi * hx h d phi + hy h d * hy h d := sqrt_pos.1 (lt_of_le_of_ne (sqrt_nonneg _) hz.symm)
  have hcs : (cos d * sin phi - cos h * (sin d * cos phi)) * (cos d * sin phi - cos h * (sin d * cos phi)) +
      sin h * cos phi * (sin h * cos phi) = hx h d phi * hx h d phi + hy h d * hy h d := by
    have h1 := sin_sq_add_cos_sq h
    have h2 := sin_sq_add_cos_sq d
    have h3 := sin_sq_add_cos_sq phi
    unfold hx hy
    grind
  rw [if_pos (by rw [hcs]; exact hpos)]
  unfold pa
  dsimp only
  have e1 : cos phi * sin h = sin h * cos phi := mul_comm _ _
  have e2 : sin phi * cos d - cos phi * sin d * cos h = cos d * sin phi - cos h * (sin d * cos phi) := by ring
  rw [e1, e2, if_neg]
  rintro ⟨a, b⟩
  rw [a, b] at hcs
  linarith

end Sla.Props
