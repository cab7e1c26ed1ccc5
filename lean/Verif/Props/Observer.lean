import Verif.Lemmas.Coords
import Mathlib.Analysis.Calculus.Deriv.Pi
import Mathlib.Analysis.SpecialFunctions.Sqrt

/-
C48 - C50, C57, C58: proper motion, observer, radial velocity corrections, polar motion and precession of a position.
-/
namespace Sla.Props
open Real Spec Matrix

/-! ## C48 -/

/-- The space motion of `pm`: proper motion along the east and north directions at the star, and the radial velocity
    along the line of sight. -/
noncomputable def spaceMotion (s motion : Spherical) (w : ℝ) : Vec :=
  (motion.a * cos s.b) • east s.a + motion.b • north s.a s.b + w • direction s.a s.b

theorem pm_pos (s motion : Spherical) (w t : ℝ) :
    let pos := dcs2c s
    (fun i => pos i + t * (![-motion.a * pos 1 - motion.b * cos s.a * sin s.b + w * pos 0,
      motion.a * pos 0 - motion.b * sin s.a * sin s.b + w * pos 1, motion.b * cos s.b + w * pos 2] : Vec) i) =
    direction s.a s.b + t • spaceMotion s motion w := by
  intro pos
  funext i
  simp only [pos, dcs2c_eq, spaceMotion, direction_eq, east_eq, north_eq]
  fin_cases i <;> simp <;> ring_nf <;> simp

/-- `pm` returns the direction of the star's position vector moved along a straight line for the interval with the given
    proper motion and radial velocity (in km/s, turned to radians per year with the parallax in arcseconds); RA in
    [0,2pi), Dec in [-pi/2,pi/2]. -/
theorem C48_pm (s motion : Spherical) (px rv ep0 ep1 : ℝ) :
    let w := rv * (365.25 * 86400 / 149597870) * (px * 4.8481368111e-6)
    let p := pm s motion px rv ep0 ep1
    (∃ k : ℝ, 0 ≤ k ∧ direction s.a s.b + (ep1 - ep0) • ((motion.a * cos s.b) • east s.a + motion.b • north s.a s.b +
      w • direction s.a s.b) = k • direction p.a p.b) ∧
    0 ≤ p.a ∧ p.a < 2 * π ∧ |p.b| ≤ π / 2 := by
  intro w p
  have hw : vfr * rv * px = w := by simp only [vfr, w]; ring
  have hp : p = ⟨dranrm (dcc2s (direction s.a s.b + (ep1 - ep0) • spaceMotion s motion w)).a,
      (dcc2s (direction s.a s.b + (ep1 - ep0) • spaceMotion s motion w)).b⟩ := by
    simp only [p, pm, hw]
    rw [pm_pos]
  obtain ⟨r1, r2, r3, r4, -⟩ := reduce_spec (direction s.a s.b + (ep1 - ep0) • spaceMotion s motion w)
  rw [hp]
  exact ⟨⟨_, len_nonneg _, r1⟩, r2, r3, r4⟩

/-- The factor and the direction are determined: with a star not carried through the origin, the returned direction is the
    unit vector along the moved position. -/
theorem pm_unit (s motion : Spherical) (px rv ep0 ep1 : ℝ) :
    let w := rv * (365.25 * 86400 / 149597870) * (px * 4.8481368111e-6)
    let v := direction s.a s.b + (ep1 - ep0) • spaceMotion s motion w
    len v • direction (pm s motion px rv ep0 ep1).a (pm s motion px rv ep0 ep1).b = v := by
  intro w v
  obtain ⟨⟨k, hk, h⟩, -⟩ := C48_pm s motion px rv ep0 ep1
  have h' : v = k • direction (pm s motion px rv ep0 ep1).a (pm s motion px rv ep0 ep1).b := h
  rw [h', len_smul, len_direction, mul_one, abs_of_nonneg hk]

/-- Equal epochs: the same direction, and the same coordinates if they are in range and away from the poles. -/
theorem C48_same_epoch (s motion : Spherical) (px rv ep : ℝ) :
    direction (pm s motion px rv ep ep).a (pm s motion px rv ep ep).b = direction s.a s.b ∧
    (0 ≤ s.a → s.a < 2 * π → |s.b| < π / 2 → pm s motion px rv ep ep = s) := by
  have h := pm_unit s motion px rv ep ep
  simp only [sub_self, zero_smul, add_zero, len_direction, one_smul] at h
  obtain ⟨-, h1, h2, h3⟩ := C48_pm s motion px rv ep ep
  exact ⟨h, fun a b c => same_place h h3 h1 h2 a b c⟩

/-- Without proper motion the direction does not change as long as the star has not reached the origin. -/
theorem C48_radial (s : Spherical) (px rv ep0 ep1 : ℝ)
    (h : 0 < 1 + (ep1 - ep0) * (rv * (365.25 * 86400 / 149597870) * (px * 4.8481368111e-6))) :
    direction (pm s ⟨0, 0⟩ px rv ep0 ep1).a (pm s ⟨0, 0⟩ px rv ep0 ep1).b = direction s.a s.b := by
  have e := pm_unit s ⟨0, 0⟩ px rv ep0 ep1
  set w := rv * (365.25 * 86400 / 149597870) * (px * 4.8481368111e-6)
  simp only [spaceMotion, zero_mul, zero_smul, zero_add, smul_smul] at e
  rw [show direction s.a s.b + ((ep1 - ep0) * w) • direction s.a s.b = (1 + (ep1 - ep0) * w) • direction s.a s.b by
    rw [add_smul, one_smul], len_smul, len_direction, mul_one, abs_of_pos h] at e
  exact smul_right_injective _ h.ne' e

example : (0 : ℝ) < 1 + (2000 - 1950) * (-20 * (365.25 * 86400 / 149597870) * (0.5 * 4.8481368111e-6)) := by norm_num

/-- The initial rate of change of the returned direction is the given proper motion (the radial velocity does not
    contribute): dRA/dt cos(Dec) to the east and dDec/dt to the north. -/
theorem C48_rate (s motion : Spherical) (px rv ep0 : ℝ) :
    HasDerivAt (fun ep1 => direction (pm s motion px rv ep0 ep1).a (pm s motion px rv ep0 ep1).b)
      ((motion.a * cos s.b) • east s.a + motion.b • north s.a s.b) ep0 := by
  set w := rv * (365.25 * 86400 / 149597870) * (px * 4.8481368111e-6) with hw
  set d := direction s.a s.b with hd
  set m := spaceMotion s motion w with hm
  have hdd : d ⬝ᵥ d = 1 := direction_unit _ _
  have hdm : d ⬝ᵥ m = w := by
    have h1 := sin_sq_add_cos_sq s.a
    have h2 := sin_sq_add_cos_sq s.b
    simp only [hd, hm, spaceMotion, direction_eq, east_eq, north_eq]
    simp [dotProduct, Fin.sum_univ_three]
    grind
  have hv : ∀ x : ℝ, len (d + (x - ep0) • m) = sqrt (1 + 2 * w * (x - ep0) + (m ⬝ᵥ m) * (x - ep0) ^ 2) := by
    intro x
    rw [len]; congr 1
    rw [dotProduct_add, add_dotProduct, add_dotProduct, smul_dotProduct, dotProduct_smul, dotProduct_smul,
      smul_dotProduct, hdd, hdm, dotProduct_comm m d, hdm]
    simp only [smul_eq_mul]; ring
  have hsub : HasDerivAt (fun x : ℝ => x - ep0) 1 ep0 := (hasDerivAt_id ep0).sub_const ep0
  have hq : HasDerivAt (fun x : ℝ => 1 + 2 * w * (x - ep0) + (m ⬝ᵥ m) * (x - ep0) ^ 2) (2 * w) ep0 := by
    have := ((hsub.const_mul (2 * w)).const_add 1).add ((hsub.pow 2).const_mul (m ⬝ᵥ m))
    refine this.congr_deriv ?_
    simp
  have hn : HasDerivAt (fun x => len (d + (x - ep0) • m)) w ep0 := by
    simp only [hv]
    refine (hq.sqrt (by simp)).congr_deriv ?_
    simp
  have hn0 : len (d + (ep0 - ep0) • m) = 1 := by simp [hd, len_direction]
  have hcont := hn.continuousAt.eventually_ne (y := 0) (by rw [hn0]; norm_num)
  have hev : (fun ep1 => direction (pm s motion px rv ep0 ep1).a (pm s motion px rv ep0 ep1).b) =ᶠ[nhds ep0]
      fun x => (len (d + (x - ep0) • m))⁻¹ • (d + (x - ep0) • m) := by
    filter_upwards [hcont] with x hx
    have := pm_unit s motion px rv ep0 x
    simp only at this
    have h2 := congrArg ((len (d + (x - ep0) • m))⁻¹ • ·) this
    simp only [smul_smul] at h2
    rw [inv_mul_cancel₀ hx, one_smul] at h2
    exact h2
  refine HasDerivAt.congr_of_eventuallyEq ?_ hev
  have hlin : HasDerivAt (fun x : ℝ => d + (x - ep0) • m) m ep0 := by
    have := (hsub.smul_const m).const_add d
    refine this.congr_deriv (by simp)
  have hinv := hn.inv (by rw [hn0]; norm_num)
  refine (hinv.smul hlin).congr_deriv ?_
  simp only [Pi.inv_apply, sub_self, zero_smul, add_zero]
  simp only [hm, spaceMotion]
  rw [← hd]
  have hl1 : len d = 1 := len_direction _ _
  funext i
  simp [hl1]

/-! ## C49 -/

/-- At zero height the observer is on the reference ellipsoid (equatorial radius 6378140 m, flattening 1/298.257, in AU),
    and the outward normal of the ellipsoid there makes the angle of the latitude with the equator. -/
theorem C49_ellipsoid (phi : ℝ) :
    let a : ℝ := 6378140 / 1.49597870e11
    let b : ℝ := a * (1 - 1 / 298.257)
    let g := geoc phi 0
    (g.1 / a) ^ 2 + (g.2 / b) ^ 2 = 1 ∧ ∃ k : ℝ, 0 < k ∧ g.1 / a ^ 2 = k * cos phi ∧ g.2 / b ^ 2 = k * sin phi := by
  intro a b g
  have hB : geocB = (1 - 1 / 298.257) ^ 2 := by simp only [geocB, geocB2]; ring
  have hb : b ^ 2 = a ^ 2 * geocB := by simp only [b, hB]; ring
  have hBp : 0 < geocB := by rw [hB]; norm_num
  have ha : 0 < a := by norm_num [a]
  have hbp : 0 < b := by simp only [b]; norm_num [a]
  have hq : 0 < cos phi * cos phi + geocB * sin phi * sin phi := by
    have := sin_sq_add_cos_sq phi
    rcases eq_or_ne (cos phi) 0 with h | h
    · have : sin phi ^ 2 = 1 := by rw [h] at this; linarith
      rw [h]; nlinarith
    · have := mul_self_pos.2 h
      nlinarith [mul_nonneg hBp.le (mul_self_nonneg (sin phi))]
  set c := sqrt (cos phi * cos phi + geocB * sin phi * sin phi) with hc
  have hcp : 0 < c := sqrt_pos.2 hq
  have hc2 : c ^ 2 = cos phi * cos phi + geocB * sin phi * sin phi := sq_sqrt hq.le
  have g1 : g.1 = a * cos phi / c := by
    simp only [g, geoc, ← hc, geocRadius, geocAU, a]; ring
  have g2 : g.2 = a * geocB * sin phi / c := by
    simp only [g, geoc, ← hc, geocRadius, geocAU, a]; ring
  refine ⟨?_, 1 / (a * c), by positivity, ?_, ?_⟩
  · rw [div_pow g.2, hb, g1, g2]
    field_simp
    linear_combination -hc2
  · rw [g1]; field_simp
  · rw [g2, hb]; field_simp

/-- Height moves the observer along that normal by its length (metres to AU). -/
theorem C49_height (phi h : ℝ) : geoc phi h =
    ((geoc phi 0).1 + h / 1.49597870e11 * cos phi, (geoc phi 0).2 + h / 1.49597870e11 * sin phi) := by
  simp only [geoc, geocAU]
  ext <;> simp only <;> ring

/-- `pvobs`: the position is at the given axial distance and height at the angle of the sidereal time. -/
theorem C49_position (phi h lst : ℝ) :
    (pvobs phi h lst).pos = (geoc phi h).1 • direction lst 0 + (geoc phi h).2 • ez := by
  rw [direction_eq]
  funext i
  fin_cases i <;> simp [pvobs, ez]

/-- The velocity is the rate of change of the position as the sidereal time advances at 7.292115855306589e-5 radians per
    second; it is perpendicular to the rotation axis and to the position, and directed east for an observer off the
    axis. -/
theorem C49_velocity (phi h lst : ℝ) :
    HasDerivAt (fun t => (pvobs phi h (lst + 7.292115855306589e-5 * t)).pos) (pvobs phi h lst).vel 0 ∧
    (pvobs phi h lst).vel ⬝ᵥ ez = 0 ∧ (pvobs phi h lst).vel ⬝ᵥ (pvobs phi h lst).pos = 0 ∧
    (pvobs phi h lst).vel = (7.292115855306589e-5 * (geoc phi h).1) • east lst := by
  refine ⟨?_, by simp [pvobs, ez, dotProduct, Fin.sum_univ_three], ?_, ?_⟩
  · rw [hasDerivAt_pi]
    have hl : HasDerivAt (fun t : ℝ => lst + 7.292115855306589e-5 * t) 7.292115855306589e-5 0 := by
      have := ((hasDerivAt_id (0 : ℝ)).const_mul 7.292115855306589e-5).const_add lst
      refine this.congr_deriv (by simp)
    intro i
    fin_cases i
    · refine ((hl.cos).const_mul (geoc phi h).1).congr_deriv ?_
      simp [pvobs, siderealRate]; ring
    · refine ((hl.sin).const_mul (geoc phi h).1).congr_deriv ?_
      simp [pvobs, siderealRate]; ring
    · refine (hasDerivAt_const (0 : ℝ) (geoc phi h).2).congr_deriv ?_
      simp [pvobs]
  · simp [pvobs, dotProduct, Fin.sum_univ_three]; ring
  · rw [east_eq]
    funext i
    fin_cases i <;> simp [pvobs, siderealRate]

/-! ## C50 -/

theorem direction_antipode (s : Spherical) : direction (s.a + π) (-s.b) = -direction s.a s.b := by
  rw [direction_eq, direction_eq]
  funext i
  fin_cases i <;> simp [cos_add_pi, sin_add_pi]

/-- A fixed velocity projected on the line of sight: bounded by the speed, opposite for antipodes, and attained. -/
def IsProjection (f : Spherical → ℝ) (v : Vec) : Prop :=
  (∀ s, f s = -(v ⬝ᵥ direction s.a s.b)) ∧ (∀ s, |f s| ≤ len v) ∧
  (∀ s : Spherical, f ⟨s.a + π, -s.b⟩ = -f s) ∧
  (∀ s : Spherical, len v • direction s.a s.b = v → f s = -len v) ∧ ∃ s : Spherical, f s = -len v

theorem isProjection (v w : Vec) (h : w = -v) : IsProjection (fun s => dvdv w (dcs2c s)) v := by
  have e : ∀ s : Spherical, dvdv w (dcs2c s) = -(v ⬝ᵥ direction s.a s.b) := by
    intro s; rw [dvdv_eq, dcs2c_eq, h, neg_dotProduct]
  have apex : ∀ s : Spherical, len v • direction s.a s.b = v → dvdv w (dcs2c s) = -len v := by
    intro s hs
    rw [e]; nth_rw 1 [← hs]; rw [smul_dotProduct, direction_unit]; simp
  refine ⟨e, fun s => ?_, fun s => ?_, apex, dcc2s v, apex _ (C25_dcc2s v).1.symm⟩
  · simp only [e, abs_neg]
    have h2 : (v ⬝ᵥ direction s.a s.b) ^ 2 ≤ len v ^ 2 := by
      have hu := direction_unit s.a s.b
      rw [len, sq_sqrt (by simp only [dotProduct, Fin.sum_univ_three]; nlinarith [mul_self_nonneg (v 0), mul_self_nonneg (v 1), mul_self_nonneg (v 2)])]
      have : (v ⬝ᵥ direction s.a s.b) ^ 2 ≤ (v ⬝ᵥ v) * (direction s.a s.b ⬝ᵥ direction s.a s.b) := by
        generalize direction s.a s.b = d
        simp only [dotProduct, Fin.sum_univ_three]
        nlinarith [sq_nonneg (d 0 * v 1 - d 1 * v 0), sq_nonneg (d 0 * v 2 - d 2 * v 0),
          sq_nonneg (d 1 * v 2 - d 2 * v 1)]
      rw [hu] at this; linarith
    exact abs_le_of_sq_le_sq h2 (len_nonneg v)
  · simp only [e]; rw [direction_antipode, dotProduct_neg]

/-- The four corrections are minus the projection on the line of sight of the solar velocity. That velocity is, in the
    galactic frame of `eqgal`, (9,12,7) km/s for the dynamical local standard of rest, 220 km/s and 300 km/s towards
    longitude 90 degrees on the galactic equator for the galactic centre and the local group (each to 1e-5 km/s per
    component), and has a speed of 20 km/s for the kinematical local standard of rest. -/
theorem C50_projections :
    (∃ v, IsProjection rvlsrd v ∧ ∀ i, |v i - (galMatᵀ *ᵥ ![9, 12, 7]) i| ≤ 1e-5) ∧
    (∃ v, IsProjection rvlsrk v ∧ |len v - 20| ≤ 1e-5) ∧
    (∃ v, IsProjection rvgalc v ∧ ∀ i, |v i - (galMatᵀ *ᵥ ((220 : ℝ) • direction (π / 2) 0)) i| ≤ 1e-5) ∧
    (∃ v, IsProjection rvlg v ∧ ∀ i, |v i - (galMatᵀ *ᵥ ((300 : ℝ) • direction (π / 2) 0)) i| ≤ 1e-5) := by
  refine ⟨⟨![-0.63823, -14.58542, 7.80116], isProjection _ _ (by funext i; fin_cases i <;> simp), ?_⟩,
    ⟨![0.29000, -17.31726, 10.00141], isProjection _ _ (by funext i; fin_cases i <;> simp), ?_⟩,
    ⟨![108.70408, -97.86251, 164.33610], isProjection _ _ (by funext i; fin_cases i <;> simp), ?_⟩,
    ⟨![148.23284, -133.44888, 224.09467], isProjection _ _ (by funext i; fin_cases i <;> simp), ?_⟩⟩
  · intro i
    rw [abs_le]
    fin_cases i <;> simp [galMat, Matrix.mulVec, dotProduct, Fin.sum_univ_three] <;> norm_num
  · rw [len_eq, abs_le]
    have h1 : sqrt (20 ^ 2) = 20 := sqrt_sq (by norm_num)
    constructor
    · have : (20 : ℝ) - 1e-5 ≤ sqrt ((![0.29000, -17.31726, 10.00141] : Vec) 0 * (![0.29000, -17.31726, 10.00141] : Vec) 0 +
          (![0.29000, -17.31726, 10.00141] : Vec) 1 * (![0.29000, -17.31726, 10.00141] : Vec) 1 +
          (![0.29000, -17.31726, 10.00141] : Vec) 2 * (![0.29000, -17.31726, 10.00141] : Vec) 2) := by
        apply le_sqrt_of_sq_le; simp; norm_num
      linarith
    · have : sqrt ((![0.29000, -17.31726, 10.00141] : Vec) 0 * (![0.29000, -17.31726, 10.00141] : Vec) 0 +
          (![0.29000, -17.31726, 10.00141] : Vec) 1 * (![0.29000, -17.31726, 10.00141] : Vec) 1 +
          (![0.29000, -17.31726, 10.00141] : Vec) 2 * (![0.29000, -17.31726, 10.00141] : Vec) 2) ≤ (20 : ℝ) + 1e-5 := by
        rw [sqrt_le_left (by norm_num)]; simp; norm_num
      linarith
  · intro i
    rw [direction_eq, abs_le]
    fin_cases i <;> simp [galMat, Matrix.mulVec, dotProduct, Fin.sum_univ_three] <;> norm_num
  · intro i
    rw [direction_eq, abs_le]
    fin_cases i <;> simp [galMat, Matrix.mulVec, dotProduct, Fin.sum_univ_three] <;> norm_num

/-- `rverot` is minus the projection on the line of sight of the eastward velocity 0.4655 cos(latitude) km/s of the
    observer; so it is bounded by that speed, vanishes on the meridian, is opposite for antipodes and greatest for a
    star setting due west on the equator. -/
theorem C50_rverot (phi st : ℝ) :
    IsProjection (fun s => rverot phi s st) ((0.4655 * cos phi) • east st) ∧ len ((0.4655 * cos phi) • east st) =
      |0.4655 * cos phi| ∧
    (∀ s : Spherical, s.a = st → rverot phi s st = 0) ∧
    rverot phi ⟨st - π / 2, 0⟩ st = 0.4655 * cos phi := by
  have e : ∀ s : Spherical, rverot phi s st = dvdv (-((0.4655 * cos phi) • east st)) (dcs2c s) := by
    intro s
    rw [dvdv_eq, dcs2c_eq, direction_eq, east_eq]
    simp [rverot, dotProduct, Fin.sum_univ_three, sin_sub]; ring
  refine ⟨?_, ?_, ?_, ?_⟩
  · have := isProjection ((0.4655 * cos phi) • east st) (-((0.4655 * cos phi) • east st)) rfl
    rwa [← funext e] at this
  · rw [len_smul]
    have : len (east st) = 1 := by
      rw [len_eq, east_eq, sqrt_eq_one]; simp; nlinarith [sin_sq_add_cos_sq st]
    rw [this, mul_one]
  · intro s hs; simp [rverot, hs]
  · simp [rverot]

/-! ## C57 -/

/-- The polar-motion rotation: turn the frame about the x axis by the y coordinate of the pole, then about the y axis by
    the x coordinate. -/
noncomputable def polarMotion (x y : ℝ) (v : Vec) : Vec := turnFrame ey x (turnFrame ex y v)

/-- `polmo` returns the longitude and latitude of the site's direction turned by the polar motion, and minus the bearing
    (azimuth east of north) of the equally turned terrestrial pole as seen from the site; it fails only where the turned
    site is exactly at the pole. -/
theorem C57_polmo (long phi x y : ℝ) :
    (polmo long phi x y = none ↔ polarMotion x y (direction long phi) = ez ∨ polarMotion x y (direction long phi) = -ez) ∧
    ∀ r, polmo long phi x y = some r →
      direction r.long r.phi = polarMotion x y (direction long phi) ∧ -π < r.long ∧ r.long ≤ π ∧ |r.phi| < π / 2 ∧
      r.daz = atan2 (-(polarMotion x y ez ⬝ᵥ east r.long)) (polarMotion x y ez ⬝ᵥ north r.long r.phi) := by
  set v := polarMotion x y (direction long phi) with hv
  have hvu : v ⬝ᵥ v = 1 := by
    have hx : IsRotation (frameMat ex y) := frameMat_rotation _ (by simp [ex, dotProduct, Fin.sum_univ_three]) _
    have hy : IsRotation (frameMat ey x) := frameMat_rotation _ (by simp [ey, dotProduct, Fin.sum_univ_three]) _
    rw [hv, polarMotion, ← frameMat_mulVec, ← frameMat_mulVec, rotation_dot hy, rotation_dot hx, direction_unit]
  have hvu' : v 0 * v 0 + v 1 * v 1 + v 2 * v 2 = 1 := by
    simpa [dotProduct, Fin.sum_univ_three] using hvu
  have e0 : cos long * cos phi * cos x - (-(sin long * cos phi) * sin y + sin phi * cos y) * sin x = v 0 := by
    rw [hv, direction_eq]
    simp [polarMotion, turnFrame, ex, ey, cross_apply, dotProduct, Fin.sum_univ_three]; ring
  have e1 : sin long * cos phi * cos y + sin phi * sin y = v 1 := by
    rw [hv, direction_eq]
    simp [polarMotion, turnFrame, ex, ey, cross_apply, dotProduct, Fin.sum_univ_three]; ring
  have e2 : cos long * cos phi * sin x + (-(sin long * cos phi) * sin y + sin phi * cos y) * cos x = v 2 := by
    rw [hv, direction_eq]
    simp [polarMotion, turnFrame, ex, ey, cross_apply, dotProduct, Fin.sum_univ_three]; ring
  have hn : polarMotion x y ez = ![-sin x * cos y, sin y, cos x * cos y] := by
    funext i
    fin_cases i <;> simp [polarMotion, turnFrame, ex, ey, ez, cross_apply, dotProduct, Fin.sum_univ_three] <;> ring
  unfold polmo
  simp only [e0, e1, e2]
  constructor
  · constructor
    · intro h
      by_cases hz : sqrt (v 0 * v 0 + v 1 * v 1) = 0
      · obtain ⟨z0, z1⟩ := sqrt_sumsq_eq_zero.1 hz
        rw [z0, z1] at hvu'
        have : (v 2 - 1) * (v 2 + 1) = 0 := by linarith
        rcases mul_eq_zero.1 this with h | h
        · left; funext i; fin_cases i <;> simp [ez, z0, z1]; linarith
        · right; funext i; fin_cases i <;> simp [ez, z0, z1]; linarith
      · rw [if_neg hz] at h; cases h
    · intro h
      have : sqrt (v 0 * v 0 + v 1 * v 1) = 0 := by
        rw [sqrt_sumsq_eq_zero]
        rcases h with h | h <;> rw [h] <;> simp [ez]
      rw [if_pos this]
  · intro r hr
    by_cases hz : sqrt (v 0 * v 0 + v 1 * v 1) = 0
    · rw [if_pos hz] at hr; cases hr
    rw [if_neg hz] at hr
    have hz' : ¬(v 0 = 0 ∧ v 1 = 0) := fun h => hz (sqrt_sumsq_eq_zero.2 h)
    have hor : v 0 ≠ 0 ∨ v 1 ≠ 0 := by tauto
    rw [if_pos hor] at hr
    have hrl : r.long = atan2 (v 1) (v 0) := by cases hr; rfl
    have hrp : r.phi = atan2 (v 2) (sqrt (v 0 * v 0 + v 1 * v 1)) := by cases hr; rfl
    have hcp : 0 < sqrt (v 0 * v 0 + v 1 * v 1) := lt_of_le_of_ne (sqrt_nonneg _) (Ne.symm hz)
    have hs : dcc2s v = ⟨r.long, r.phi⟩ := by rw [dcc2s_eq, hrl, hrp]
    have hdir : direction r.long r.phi = v := by
      have := (C25_dcc2s v).1
      rw [hs, len, hvu, sqrt_one, one_smul] at this; exact this.symm
    refine ⟨hdir, ?_, ?_, ?_, ?_⟩
    · rw [hrl]; exact (atan2_mem _ _).1
    · rw [hrl]; exact (atan2_mem _ _).2
    · rw [hrp]; exact atan2_abs_lt_half_pi hcp
    · set c := sqrt (v 0 * v 0 + v 1 * v 1)
      have hc1 : cos r.long = v 0 / c := by
        rw [hrl, eq_div_iff hz, mul_comm]; exact polar_cos _ _
      have hs1 : sin r.long = v 1 / c := by
        rw [hrl, eq_div_iff hz, mul_comm]; exact polar_sin _ _
      have hsp : sin r.phi = v 2 := by
        have := congrFun hdir 2
        rw [direction_eq] at this; simpa using this
      have hcp' : cos r.phi = c := by
        have := lat_cos (v 0) (v 1) (v 2)
        rw [hvu', sqrt_one, one_mul] at this
        rw [hrp]; exact this
      have hE : polarMotion x y ez ⬝ᵥ east r.long = -(-sin x * cos y) * (v 1 / c) + sin y * (v 0 / c) := by
        rw [hn, east_eq]; simp [dotProduct, Fin.sum_univ_three, hc1, hs1]
      have hN : polarMotion x y ez ⬝ᵥ north r.long r.phi =
          -((-sin x * cos y * (v 0 / c) + sin y * (v 1 / c)) * v 2 - cos x * cos y * c) := by
        rw [hn, north_eq]; simp [dotProduct, Fin.sum_univ_three, hc1, hs1, hsp, hcp']; ring
      rw [hE, hN]
      have hd := congrArg Polmo.daz (Option.some.inj hr)
      simp only at hd
      rw [← hd]
      by_cases h0 : (-sin x * cos y * (v 0 / c) + sin y * (v 1 / c)) * v 2 - cos x * cos y * c ≠ 0 ∨
          -(-sin x * cos y) * (v 1 / c) + sin y * (v 0 / c) ≠ 0
      · rw [if_pos h0]
      · rw [if_neg h0]
        push Not at h0
        rw [h0.1, h0.2]; simp [atan2_zero_zero]

/-- Without polar motion the coordinates are returned unchanged, with no azimuth correction. -/
theorem C57_no_motion (long phi : ℝ) (h1 : -π < long) (h2 : long ≤ π) (h3 : |phi| < π / 2) :
    polmo long phi 0 0 = some ⟨long, phi, 0⟩ := by
  have hc := cos_pos_of_abs h3
  obtain ⟨p1, p2, p3⟩ := polar_direction (r := 1) one_pos h1 h2 h3 (cos long * cos phi) (sin long * cos phi) (sin phi)
    (by simp) (by simp) (by simp)
  have hs : sqrt (cos long * cos phi * (cos long * cos phi) + sin long * cos phi * (sin long * cos phi)) = cos phi := by
    rw [show cos long * cos phi * (cos long * cos phi) + sin long * cos phi * (sin long * cos phi) =
      cos phi ^ 2 by nlinarith [sin_sq_add_cos_sq long], sqrt_sq hc.le]
  have hor : cos long * cos phi ≠ 0 ∨ sin long * cos phi ≠ 0 := by
    by_contra hcon
    push Not at hcon
    rw [hcon.1, hcon.2] at hs; simp at hs; linarith
  unfold polmo
  simp only [sin_zero, cos_zero, mul_one, mul_zero, add_zero, zero_add, sub_zero, neg_zero, zero_mul, hs, hc.ne',
    if_false, if_pos hor]
  rw [hs] at p2
  rw [p1, p2]
  have : atan2 0 (cos phi) = 0 := atan2_zero_of_nonneg hc.le
  simp [hc.ne', this]

example : -π < (1 : ℝ) ∧ (1 : ℝ) ≤ π ∧ |(0.5 : ℝ)| < π / 2 := by
  have := pi_gt_three
  refine ⟨by linarith, by linarith, ?_⟩
  rw [abs_of_pos (by norm_num)]; norm_num; linarith

/-! ## C58 -/

/-- `preces` rotates the direction by the precession matrix of the system, RA in [0,2pi); it gives (-99,-99) for the systems that
    are not supported and only for those. FK4 and FK5 are values 4 and 5 of the enumeration of catalogues. -/
theorem C58_preces (ep0 ep1 : ℝ) (s : Spherical) :
    (let p := preces catFK4 ep0 ep1 s
     direction p.a p.b = prebn ep0 ep1 *ᵥ direction s.a s.b ∧ 0 ≤ p.a ∧ p.a < 2 * π ∧ |p.b| ≤ π / 2) ∧
    (let p := preces catFK5 ep0 ep1 s
     direction p.a p.b = prec ep0 ep1 *ᵥ direction s.a s.b ∧ 0 ≤ p.a ∧ p.a < 2 * π ∧ |p.b| ≤ π / 2) ∧
    ∀ system, preces system ep0 ep1 s = ⟨-99, -99⟩ ↔ system ≠ 4 ∧ system ≠ 5 := by
  have h4 : 0 ≤ (preces catFK4 ep0 ep1 s).a := by
    simp only [preces, true_or, if_true]
    exact (reduce_spec _).2.1
  have h5 : 0 ≤ (preces catFK5 ep0 ep1 s).a := by
    simp only [preces, or_true, if_true]
    exact (reduce_spec _).2.1
  refine ⟨?_, ?_, ?_⟩
  · simp only [preces, true_or, if_true, dmxv_eq]
    exact ⟨rotated_direction (C24_rotations ep0 ep1).2.2.1 s, (reduce_spec _).2.1, (reduce_spec _).2.2.1,
      (reduce_spec _).2.2.2.1⟩
  · simp only [preces, catFK4, catFK5, dmxv_eq]
    norm_num
    exact ⟨rotated_direction (C24_rotations ep0 ep1).1 s, (reduce_spec _).2.1, (reduce_spec _).2.2.1,
      (reduce_spec _).2.2.2.1⟩
  · intro system
    constructor
    · intro h
      constructor <;> rintro rfl
      · have e : preces catFK4 ep0 ep1 s = _ := h
        rw [e] at h4; norm_num at h4
      · have e : preces catFK5 ep0 ep1 s = _ := h
        rw [e] at h5; norm_num at h5
    · rintro ⟨n4, n5⟩
      simp [preces, catFK4, catFK5, n4, n5]

/-- Angular separations are preserved. -/
theorem C58_separation (system : Int) (h : system = catFK4 ∨ system = catFK5) (ep0 ep1 : ℝ) (s t : Spherical) :
    dsep (preces system ep0 ep1 s) (preces system ep0 ep1 t) = dsep s t := by
  rcases h with rfl | rfl
  · exact dsep_rotation (C24_rotations ep0 ep1).2.2.1 (C58_preces ep0 ep1 s).1.1 (C58_preces ep0 ep1 t).1.1
  · exact dsep_rotation (C24_rotations ep0 ep1).1 (C58_preces ep0 ep1 s).2.1.1 (C58_preces ep0 ep1 t).2.1.1

/-- Equal epochs: the same direction, and the same coordinates when in range and away from the poles. -/
theorem C58_same_epoch (system : Int) (h : system = catFK4 ∨ system = catFK5) (ep : ℝ) (s : Spherical) :
    direction (preces system ep ep s).a (preces system ep ep s).b = direction s.a s.b ∧
    (0 ≤ s.a → s.a < 2 * π → |s.b| < π / 2 → preces system ep ep s = s) := by
  rcases h with rfl | rfl
  · obtain ⟨h1, h2, h3, h4⟩ := (C58_preces ep ep s).1
    rw [(C24_equal_epochs ep).2.2, one_mulVec] at h1
    exact ⟨h1, fun a b c => same_place h1 h4 h2 h3 a b c⟩
  · obtain ⟨h1, h2, h3, h4⟩ := (C58_preces ep ep s).2.1
    rw [(C24_equal_epochs ep).1, one_mulVec] at h1
    exact ⟨h1, fun a b c => same_place h1 h4 h2 h3 a b c⟩

example : catFK5 = catFK4 ∨ catFK5 = catFK5 := Or.inr rfl

end Sla.Props
