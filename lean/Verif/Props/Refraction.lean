import Verif.Model.Refraction
import Verif.Lemmas.Coords
import Mathlib.Analysis.SpecialFunctions.Trigonometric.Bounds
import Mathlib.Analysis.Real.Pi.Bounds

/-
C51 - C54: air mass, application of refraction, refraction constants, the refraction integral.
-/
namespace Sla.Props
open Real Spec Matrix

/-! ## C51 -/

private theorem cos_clamp : 1 / 19.9 ≤ cos 1.52 := by
  have h := pi_gt_d6
  have e : cos 1.52 = sin (π / 2 - 1.52) := by rw [sin_pi_div_two_sub]
  have p := pi_lt_d2
  have hx : 0 < π / 2 - 1.52 := by norm_num at *; linarith
  have h1 : 0.0507 ≤ π / 2 - 1.52 := by norm_num at *; linarith
  have h2 : π / 2 - 1.52 ≤ 0.06 := by norm_num at *; linarith
  have := sin_gt_sub_cube hx
  have h3 : (π / 2 - 1.52) ^ 3 ≤ 0.06 ^ 3 := pow_le_pow_left₀ hx.le h2 3
  rw [e]; norm_num at *; linarith

/-- The polynomial of `airmas` in sec z - 1 grows on the range it is used on. -/
private theorem poly_mono {s t : ℝ} (hs : 0 ≤ s) (hst : s ≤ t) (ht : t ≤ 18.9) :
    1 + s * (0.9981833 - s * (0.002875 + 0.0008083 * s)) ≤ 1 + t * (0.9981833 - t * (0.002875 + 0.0008083 * t)) := by
  have h1 : s * s + s * t + t * t ≤ 3 * 18.9 ^ 2 := by nlinarith
  have h2 : s + t ≤ 2 * 18.9 := by linarith
  have h3 : 0 ≤ 0.9981833 - 0.002875 * (s + t) - 0.0008083 * (s * s + s * t + t * t) := by norm_num at *; linarith
  have := mul_nonneg (sub_nonneg.2 hst) h3
  norm_num at *; nlinarith

/-- `airmas` is even, 1 at the zenith, at least 1, non-decreasing away from the zenith and constant from 1.52 radians. -/
theorem C51_airmas :
    (∀ z, airmas (-z) = airmas z) ∧ airmas 0 = 1 ∧ (∀ z, 1 ≤ airmas z) ∧
    (∀ y z, |y| ≤ |z| → airmas y ≤ airmas z) ∧ (∀ z, 1.52 ≤ |z| → airmas z = airmas 1.52) := by
  have hpi := pi_gt_d2
  have sec : ∀ z, 0 ≤ 1 / cos (min 1.52 |z|) - 1 ∧ 1 / cos (min 1.52 |z|) - 1 ≤ 18.9 := by
    intro z
    have h0 : 0 ≤ min 1.52 |z| := le_min (by norm_num) (abs_nonneg _)
    have h1 : min 1.52 |z| ≤ 1.52 := min_le_left _ _
    have h2 : cos 1.52 ≤ cos (min 1.52 |z|) := cos_le_cos_of_nonneg_of_le_pi h0 (by norm_num at hpi ⊢; linarith) h1
    have h3 := cos_clamp
    have hp : 0 < cos (min 1.52 |z|) := by norm_num at *; linarith
    constructor
    · rw [sub_nonneg, le_div_iff₀ hp]; linarith [cos_le_one (min 1.52 |z|)]
    · have : 1 / cos (min 1.52 |z|) ≤ 19.9 := by
        rw [div_le_iff₀ hp]; norm_num at *; linarith
      norm_num at *; linarith
  have mono : ∀ y z, |y| ≤ |z| → airmas y ≤ airmas z := by
    intro y z h
    refine poly_mono (sec y).1 ?_ (sec z).2
    have h0 : 0 ≤ min 1.52 |y| := le_min (by norm_num) (abs_nonneg _)
    have h1 : min 1.52 |z| ≤ 1.52 := min_le_left _ _
    have hle : min 1.52 |y| ≤ min 1.52 |z| := min_le_min le_rfl h
    have hc : cos (min 1.52 |z|) ≤ cos (min 1.52 |y|) :=
      cos_le_cos_of_nonneg_of_le_pi h0 (by linarith) hle
    have hp : 0 < cos (min 1.52 |z|) :=
      cos_pos_of_mem_Ioo ⟨by linarith, by linarith⟩
    have := one_div_le_one_div_of_le hp hc
    linarith
  have zero : airmas 0 = 1 := by
    simp only [airmas, abs_zero]
    rw [min_eq_right (by norm_num)]; simp
  refine ⟨fun z => by simp [airmas], zero, fun z => ?_, mono, fun z hz => ?_⟩
  · rw [← zero]; exact mono 0 z (by simp)
  · simp only [airmas]
    rw [min_eq_left hz, abs_of_pos (by norm_num), min_self]

/-! ## C52 -/

/-- `refz` without refraction returns the zenith distance. -/
theorem C52_refz_zero (zu : ℝ) : refz zu 0 0 = zu := by
  simp [refz, refzStep]

/-- Up to 83 degrees the refraction is two steps of the iteration; beyond, the refraction at 83 degrees is scaled
    by the ratio of the high zenith distance model to its value at 83 degrees. The two formulae agree at 83 degrees and
    the whole is continuous there. -/
theorem C52_refz_continuous (refa refb : ℝ) :
    Filter.Tendsto (fun zu => refz zu refa refb) (nhdsWithin (83 * (π / 180)) (Set.Ioi (83 * (π / 180))))
      (nhds (refz (83 * (π / 180)) refa refb)) ∧
    ∀ zu, 83 * (π / 180) < zu → zu - refz zu refa refb =
      (83 * (π / 180) - refz (83 * (π / 180)) refa refb) * (refzHigh (90 - min 93 (zu * (180 / π))) / refzHigh 7) := by
  have hpi := pi_pos
  have hthr : 83 / refzR2D = 83 * (π / 180) := by simp only [refzR2D]; field_simp
  set T := 83 * (π / 180)
  have high : ∀ zu, T < zu → refz zu refa refb = zu -
      (T - refz T refa refb) * (refzHigh (90 - min 93 (zu * (180 / π))) / refzHigh 7) := by
    intro zu h
    simp only [refz, hthr]
    rw [min_eq_right h.le, if_pos h, min_self, if_neg (lt_irrefl _)]
    simp only [refzHigh, refzR2D]; ring
  constructor
  · have h7 : refzHigh 7 ≠ 0 := by norm_num [refzHigh]
    have : Filter.Tendsto (fun zu => zu - (T - refz T refa refb) * (refzHigh (90 - min 93 (zu * (180 / π))) / refzHigh 7))
        (nhdsWithin T (Set.Ioi T)) (nhds (refz T refa refb)) := by
      have hv : T - (T - refz T refa refb) * (refzHigh (90 - min 93 (T * (180 / π))) / refzHigh 7) = refz T refa refb := by
        have : T * (180 / π) = 83 := by simp only [T]; field_simp
        rw [this, min_eq_right (by norm_num), show (90 : ℝ) - 83 = 7 by norm_num, div_self h7]; ring
      have hc : ContinuousAt (fun zu => zu - (T - refz T refa refb) * (refzHigh (90 - min 93 (zu * (180 / π))) / refzHigh 7)) T := by
        have hin : ContinuousAt (fun zu : ℝ => 90 - min 93 (zu * (180 / π))) T := by fun_prop
        have hval : 90 - min 93 (T * (180 / π)) = 7 := by
          have : T * (180 / π) = 83 := by simp only [T]; field_simp
          rw [this, min_eq_right (by norm_num)]; norm_num
        have hh : ContinuousAt refzHigh 7 := by
          unfold refzHigh
          exact ContinuousAt.div (by fun_prop) (by fun_prop) (by norm_num)
        have hcomp : ContinuousAt (fun zu : ℝ => refzHigh (90 - min 93 (zu * (180 / π)))) T := by
          have h2 : ContinuousAt refzHigh ((fun zu : ℝ => 90 - min 93 (zu * (180 / π))) T) := by
            simp only [hval]; exact hh
          exact ContinuousAt.comp (f := fun zu : ℝ => 90 - min 93 (zu * (180 / π))) h2 hin
        exact continuousAt_id.sub (continuousAt_const.mul (hcomp.div_const _))
      have := hc.tendsto.mono_left (nhdsWithin_le_nhds (s := Set.Ioi T))
      rwa [hv] at this
    refine this.congr' ?_
    filter_upwards [self_mem_nhdsWithin] with zu hzu
    exact (high zu hzu).symm
  · intro zu h
    rw [high zu h]; ring

/-- Beyond 93 degrees the refraction is held at its 93 degrees value. -/
theorem C52_refz_held (refa refb zu : ℝ) (h : 93 * (π / 180) ≤ zu) :
    zu - refz zu refa refb = 93 * (π / 180) - refz (93 * (π / 180)) refa refb := by
  have hpi := pi_pos
  have e : ∀ z, 93 * (π / 180) ≤ z → min 93 (z * (180 / π)) = 93 := by
    intro z hz
    apply min_eq_left
    have := mul_le_mul_of_nonneg_right hz (by positivity : 0 ≤ 180 / π)
    rwa [show 93 * (π / 180) * (180 / π) = 93 by field_simp] at this
  rw [(C52_refz_continuous refa refb).2 zu (by linarith), (C52_refz_continuous refa refb).2 (93 * (π / 180)) (by linarith),
    e zu h, e _ le_rfl]

example : (93 : ℝ) * (π / 180) ≤ 2 := by have := pi_lt_d2; norm_num at *; linarith

/-- If the first step already solves the refraction equation, the second leaves it: a fixed point of the iteration is
    a zenith distance z with z + refa tan z + refb tan^3 z equal to the unrefracted one. -/
theorem C52_refz_fixed_point (refa refb z : ℝ) :
    refzStep refa refb (z + refa * tan z + refb * tan z ^ 3) z = 0 := by
  simp only [refzStep, tan_eq_sin_div_cos]
  rw [show z - (z + refa * (sin z / cos z) + refb * (sin z / cos z) ^ 3) + refa * (sin z / cos z) +
    refb * (sin z / cos z * (sin z / cos z * (sin z / cos z))) = 0 by ring, zero_div]

theorem turn_ez (t : ℝ) (v : Vec) :
    turnFrame ez t v = ![cos t * v 0 + sin t * v 1, cos t * v 1 - sin t * v 0, v 2] := by
  rw [← frameMat_mulVec]
  funext i
  fin_cases i <;> simp [frameMat, Matrix.mulVec, dotProduct, Fin.sum_univ_three, ez] <;> ring

/-- `refv` scales the two horizontal components by the same factor, which depends only on the length of the
    horizontal part and the height: azimuth is not affected, and turning the vector about the vertical
    turns the result. -/
theorem C52_refv_azimuth (v : Vec) (refa refb : ℝ) :
    (∃ f : ℝ, refv v refa refb 0 = v 0 * f ∧ refv v refa refb 1 = v 1 * f) ∧
    ∀ t : ℝ, refv (turnFrame ez t v) refa refb = turnFrame ez t (refv v refa refb) := by
  obtain ⟨F, Z, hF⟩ : ∃ F Z : ℝ → ℝ → ℝ, ∀ w : Vec, refv w refa refb =
      ![w 0 * F (w 0 * w 0 + w 1 * w 1) (w 2), w 1 * F (w 0 * w 0 + w 1 * w 1) (w 2),
        Z (w 0 * w 0 + w 1 * w 1) (w 2)] := by
    refine ⟨fun rsq z1 => (1 - ((refa + refb * rsq / (max z1 0.05 * max z1 0.05)) / (1 + (refa + 3 * (refb * rsq /
        (max z1 0.05 * max z1 0.05))) * (max z1 0.05 * max z1 0.05 + rsq) / (max z1 0.05 * max z1 0.05)) * sqrt rsq /
        max z1 0.05) * ((refa + refb * rsq / (max z1 0.05 * max z1 0.05)) / (1 + (refa + 3 * (refb * rsq /
        (max z1 0.05 * max z1 0.05))) * (max z1 0.05 * max z1 0.05 + rsq) / (max z1 0.05 * max z1 0.05)) * sqrt rsq /
        max z1 0.05) / 2) * (1 - (refa + refb * rsq / (max z1 0.05 * max z1 0.05)) / (1 + (refa + 3 * (refb * rsq /
        (max z1 0.05 * max z1 0.05))) * (max z1 0.05 * max z1 0.05 + rsq) / (max z1 0.05 * max z1 0.05))),
      fun rsq z1 => refv ![sqrt rsq, 0, z1] refa refb 2, fun w => ?_⟩
    have hq : sqrt (w 0 * w 0 + w 1 * w 1) * sqrt (w 0 * w 0 + w 1 * w 1) = w 0 * w 0 + w 1 * w 1 :=
      mul_self_sqrt (add_nonneg (mul_self_nonneg _) (mul_self_nonneg _))
    funext i
    fin_cases i
    · rfl
    · rfl
    · simp only [refv, Fin.reduceFinMk, cons_val, mul_zero, add_zero, hq]
  constructor
  · rw [hF]; exact ⟨_, rfl, rfl⟩
  · intro t
    have hr : (cos t * v 0 + sin t * v 1) * (cos t * v 0 + sin t * v 1) +
        (cos t * v 1 - sin t * v 0) * (cos t * v 1 - sin t * v 0) = v 0 * v 0 + v 1 * v 1 := by
      have := sin_sq_add_cos_sq t
      linear_combination (v 0 * v 0 + v 1 * v 1) * this
    rw [turn_ez, turn_ez, hF, hF]
    simp only [cons_val_zero, cons_val_one, cons_val, hr]
    funext i
    fin_cases i <;> simp <;> ring

/-- `refv` without refraction returns the vector. -/
theorem C52_refv_zero (v : Vec) : refv v 0 0 = v := by
  funext i
  fin_cases i <;> simp [refv]

/-- Above about 3 degrees elevation `refv` returns the vector raised at right angles to itself, towards the zenith, by
    the fraction d of its length, times a common factor: the refraction has tangent d, where d is one Newton step. -/
theorem C52_refv_raises (v : Vec) (refa refb : ℝ) (hz : 0.05 ≤ v 2) (hr : v 0 * v 0 + v 1 * v 1 ≠ 0) :
    let r := sqrt (v 0 * v 0 + v 1 * v 1)
    let t := r / v 2
    let d := (refa * t + refb * t ^ 3) / (1 + (refa + 3 * refb * t ^ 2) * (1 + t ^ 2))
    ∃ up : Vec, up ⬝ᵥ up = v ⬝ᵥ v ∧ up ⬝ᵥ v = 0 ∧ 0 ≤ up 2 ∧ v 0 * up 1 = v 1 * up 0 ∧
      refv v refa refb = (1 - d ^ 2 / 2) • (v + d • up) := by
  intro r t d
  have hrp : 0 < v 0 * v 0 + v 1 * v 1 := lt_of_le_of_ne (add_nonneg (mul_self_nonneg _) (mul_self_nonneg _)) (Ne.symm hr)
  have hr0 : 0 < r := sqrt_pos.2 hrp
  have hr2 : r ^ 2 = v 0 * v 0 + v 1 * v 1 := sq_sqrt hrp.le
  have hz0 : 0 < v 2 := by norm_num at hz; linarith
  have hzn := hz0.ne'
  have hrn := hr0.ne'
  have hd : ∀ rr : ℝ, rr = v 0 * v 0 + v 1 * v 1 →
      (refa + refb * rr / (v 2 * v 2)) / (1 + (refa + 3 * (refb * rr / (v 2 * v 2))) *
        (v 2 * v 2 + rr) / (v 2 * v 2)) * r / v 2 = d := by
    intro rr hrr
    have e1 : refb * rr / (v 2 * v 2) = refb * t ^ 2 := by
      rw [hrr, ← hr2]; simp only [t]; field_simp
    have e2 : (refa + 3 * (refb * t ^ 2)) * (v 2 * v 2 + rr) / (v 2 * v 2) = (refa + 3 * refb * t ^ 2) * (1 + t ^ 2) := by
      rw [hrr, ← hr2]; simp only [t]; field_simp
    rw [e1, e2]
    simp only [d]
    rw [show refa * t + refb * t ^ 3 = (refa + refb * t ^ 2) * t by ring]
    simp only [t]; ring
  have hw : ∀ rr : ℝ, rr = v 0 * v 0 + v 1 * v 1 →
      (refa + refb * rr / (v 2 * v 2)) / (1 + (refa + 3 * (refb * rr / (v 2 * v 2))) *
        (v 2 * v 2 + rr) / (v 2 * v 2)) = d * v 2 / r := by
    intro rr hrr
    rw [← hd rr hrr]; field_simp
  refine ⟨![-(v 0) * v 2 / r, -(v 1) * v 2 / r, r], ?_, ?_, ?_, ?_, ?_⟩
  · simp [dotProduct, Fin.sum_univ_three]
    field_simp
    rw [show r ^ 4 = r ^ 2 * r ^ 2 by ring, hr2]; ring
  · simp [dotProduct, Fin.sum_univ_three]
    field_simp
    linear_combination v 2 * hr2
  · simpa using hr0.le
  · simp; ring
  · have hm : max (v 2) 0.05 = v 2 := max_eq_left hz
    have hdd : d * v 2 / r * r / v 2 = d := by field_simp
    have hs : sqrt (v 0 * v 0 + v 1 * v 1) = r := rfl
    unfold refv
    simp only [hm, hs, hw _ rfl, hdd]
    funext i
    fin_cases i
    · simp only [Fin.zero_eta, cons_val_zero, Pi.smul_apply, Pi.add_apply, smul_eq_mul]
      field_simp
      ring
    · simp only [Fin.mk_one, cons_val_one, cons_val_zero, Pi.smul_apply, Pi.add_apply, smul_eq_mul]
      field_simp
      ring
    · simp only [Fin.reduceFinMk, cons_val, Pi.smul_apply, Pi.add_apply, smul_eq_mul]
      ring

example : (0.05 : ℝ) ≤ (![0.6, 0, 0.8] : Vec) 2 ∧
    (![0.6, 0, 0.8] : Vec) 0 * (![0.6, 0, 0.8] : Vec) 0 + (![0.6, 0, 0.8] : Vec) 1 * (![0.6, 0, 0.8] : Vec) 1 ≠ 0 := by
  constructor <;> simp <;> norm_num

/-! ## C53 -/

/-- The two constants of `refco` reproduce the refraction of `refro` exactly at the zenith distances whose tangents are
    1 and 4, and are the only constants that do. -/
theorem C53_refco (oh atk apm arh wl phi tlr eps a b : ℝ) :
    (a * tan (arctan 1) + b * tan (arctan 1) ^ 3 = refro (arctan 1) oh atk apm arh wl phi tlr eps ∧
     a * tan (arctan 4) + b * tan (arctan 4) ^ 3 = refro (arctan 4) oh atk apm arh wl phi tlr eps) ↔
    refco oh atk apm arh wl phi tlr eps = (a, b) := by
  simp only [refco, Prod.mk.injEq, tan_arctan]
  constructor
  · rintro ⟨h1, h2⟩
    rw [← h1, ← h2]
    constructor <;> ring
  · rintro ⟨h1, h2⟩
    rw [← h1, ← h2]
    constructor <;> ring

/-- `refcoq` gives zero for zero (or negative) pressure, and depends only on the clamped arguments; the choice between
    optical and radio is by the wavelength given. -/
theorem C53_refcoq (atk apm arh wl : ℝ) :
    (apm ≤ 0 → refcoq atk apm arh wl = (0, 0)) ∧
    refcoq (min (max atk 100) 500) (min (max apm 0) 10000) (min (max arh 0) 1) (min (max wl 0.1) 1e6) =
      refcoq atk apm arh wl := by
  constructor
  · intro h
    have : min (max apm 0) 10000 = 0 := by rw [max_eq_right h]; norm_num
    simp [refcoq, this]
  · have c1 : min (max (min (max atk 100) 500) 100) 500 = min (max atk 100) 500 := by
      rw [max_eq_left (le_min (le_max_right _ _) (by norm_num)), min_assoc, min_self]
    have c2 : min (max (min (max apm 0) 10000) 0) 10000 = min (max apm 0) 10000 := by
      rw [max_eq_left (le_min (le_max_right _ _) (by norm_num)), min_assoc, min_self]
    have c3 : min (max (min (max arh 0) 1) 0) 1 = min (max arh 0) 1 := by
      rw [max_eq_left (le_min (le_max_right _ _) (by norm_num)), min_assoc, min_self]
    have c4 : min (max (min (max wl 0.1) 1e6) 0.1) 1e6 = min (max wl 0.1) 1e6 := by
      rw [max_eq_left (le_min (le_max_right _ _) (by norm_num)), min_assoc, min_self]
    have c5 : (min (max wl 0.1) 1e6 ≤ 100) = (wl ≤ 100) := by
      apply propext
      constructor
      · intro h
        rcases min_le_iff.1 h with h | h
        · exact (max_le_iff.1 h).1
        · norm_num at h
      · intro h
        exact min_le_iff.2 (Or.inl (max_le h (by norm_num)))
    unfold refcoq
    simp only [c1, c2, c3, c4, c5]

/-- `atmdsp`: no change for radio wavelengths, none between equal wavelengths; the A coefficient scales with the
    refractivity. -/
theorem C53_atmdsp (atk apm arh wl1 a1 b1 wl2 : ℝ) :
    (wl1 > 100 ∨ wl2 > 100 → atmdsp atk apm arh wl1 a1 b1 wl2 = (a1, b1)) ∧
    atmdsp atk apm arh wl1 a1 b1 wl1 = (a1, b1) ∧
    (wl1 ≤ 100 → wl2 ≤ 100 → (atmdsp atk apm arh wl1 a1 b1 wl2).1 * atmdspN atk apm arh wl1 =
      a1 * atmdspN atk apm arh wl2 ∨ atmdspN atk apm arh wl1 = 0) := by
  refine ⟨fun h => by simp [atmdsp, h], ?_, fun h1 h2 => ?_⟩
  · unfold atmdsp
    by_cases h : wl1 > 100 ∨ wl1 > 100
    · rw [if_pos h]
    · rw [if_neg h]
      by_cases h0 : atmdspN atk apm arh wl1 ≠ 0
      · simp only [if_pos h0, div_self h0, mul_one, sub_self, mul_zero, zero_div, add_zero, ite_self]
      · simp only [if_neg h0]
  · unfold atmdsp
    rw [if_neg (by push Not; exact ⟨h1, h2⟩)]
    by_cases h0 : atmdspN atk apm arh wl1 ≠ 0
    · left
      simp only [if_pos h0]
      field_simp
    · right; push Not at h0; exact h0

/-- Going to another wavelength and back returns the A coefficient exactly; the B coefficient only up to the factor
    1 - x^2, with x = dn1 (dn1 - dn2) / (2 (dn1 - a1)). -/
theorem C53_atmdsp_back (atk apm arh wl1 a1 b1 wl2 : ℝ) (h1 : wl1 ≤ 100) (h2 : wl2 ≤ 100) :
    let n1 := atmdspN atk apm arh wl1
    let n2 := atmdspN atk apm arh wl2
    let out := atmdsp atk apm arh wl1 a1 b1 wl2
    let back := atmdsp atk apm arh wl2 out.1 out.2 wl1
    n1 ≠ 0 → n2 ≠ 0 → n1 ≠ a1 →
      back = (a1, b1 * (1 - (n1 * (n1 - n2) / (2 * (n1 - a1))) ^ 2)) := by
  intro n1 n2 out back hn1 hn2 ha
  have hout : out = (a1 * (n2 / n1), b1 * (n2 / n1) * (1 + n1 * (n1 - n2) / (2 * (n1 - a1)))) := by
    simp only [out, atmdsp]
    rw [if_neg (by push Not; exact ⟨h1, h2⟩)]
    simp only [if_pos (show atmdspN atk apm arh wl1 ≠ 0 from hn1), if_pos (show atmdspN atk apm arh wl1 ≠ a1 from ha)]
    rfl
  have ha' : n2 ≠ a1 * (n2 / n1) := by
    intro h
    apply ha
    field_simp at h
    exact h
  have hback : back = (a1 * (n2 / n1) * (n1 / n2), b1 * (n2 / n1) * (1 + n1 * (n1 - n2) / (2 * (n1 - a1))) * (n1 / n2) *
      (1 + n2 * (n2 - n1) / (2 * (n2 - a1 * (n2 / n1))))) := by
    simp only [back, hout, atmdsp]
    rw [if_neg (by push Not; exact ⟨h2, h1⟩)]
    simp only [if_pos (show atmdspN atk apm arh wl2 ≠ 0 from hn2),
      if_pos (show atmdspN atk apm arh wl2 ≠ a1 * (n2 / n1) from ha')]
    rfl
  rw [hback]
  have hs : n1 - a1 ≠ 0 := sub_ne_zero.2 ha
  have hs' : n2 - a1 * (n2 / n1) = n2 * (n1 - a1) / n1 := by field_simp
  rw [hs']
  ext
  · simp only; field_simp
  · simp only; field_simp; ring

private theorem dry_n (wl : ℝ) : atmdspN 280 1000 0 wl =
    (77.5317e-6 + (0.43909e-6 + 0.00367e-6 / (max wl 0.1 * max wl 0.1)) / (max wl 0.1 * max wl 0.1)) * 1000 / 280 := by
  simp only [atmdspN]
  rw [show min (max (280 : ℝ) 100) 500 = 280 by norm_num, show min (max (1000 : ℝ) 0) 10000 = 1000 by norm_num,
    show min (max (0 : ℝ) 0) 1 = 0 by norm_num]
  ring

/-- The hypotheses are met in dry air, and there the B coefficient does not come back: swapping the wavelengths does not
    undo `atmdsp`. -/
theorem C53_atmdsp_not_inverse : ∃ atk apm arh wl1 a1 b1 wl2 : ℝ, wl1 ≤ 100 ∧ wl2 ≤ 100 ∧
    atmdspN atk apm arh wl1 ≠ 0 ∧ atmdspN atk apm arh wl2 ≠ 0 ∧ atmdspN atk apm arh wl1 ≠ a1 ∧
    (atmdsp atk apm arh wl2 (atmdsp atk apm arh wl1 a1 b1 wl2).1 (atmdsp atk apm arh wl1 a1 b1 wl2).2 wl1).2 ≠ b1 := by
  have n1 : atmdspN 280 1000 0 0.5 = (77.5317e-6 + (0.43909e-6 + 0.00367e-6 / 0.25) / 0.25) * 1000 / 280 := by
    rw [dry_n]; norm_num
  have n2 : atmdspN 280 1000 0 1 = (77.5317e-6 + (0.43909e-6 + 0.00367e-6 / 1) / 1) * 1000 / 280 := by
    rw [dry_n]; norm_num
  have h1 : atmdspN 280 1000 0 0.5 ≠ 0 := by rw [n1]; norm_num
  have h2 : atmdspN 280 1000 0 1 ≠ 0 := by rw [n2]; norm_num
  refine ⟨280, 1000, 0, 0.5, 0, 1, 1, by norm_num, by norm_num, h1, h2, h1, ?_⟩
  rw [C53_atmdsp_back 280 1000 0 0.5 0 1 1 (by norm_num) (by norm_num) h1 h2 h1, n1, n2]
  norm_num

/-! ## C54 -/

private theorem points_length (n step : ℕ) : (refroPoints n step).length = (n - 2) / step + 1 := by
  simp [refroPoints]

/-- The state of the loop at the start of pass number `m`. -/
private def Reached (m : ℕ) (s : QState) : Prop :=
  s.strips = 8 * 2 ^ m ∧ (m = 0 → s.step = 1 ∧ s.evals = 0) ∧ (0 < m → s.step = 2 ∧ s.evals + 1 = 4 * 2 ^ m)

private theorem evals_after {m : ℕ} {s : QState} (h : Reached m s) :
    s.evals + (refroPoints s.strips s.step).length + 1 = s.strips := by
  obtain ⟨h1, h2, h3⟩ := h
  rw [points_length]
  rcases Nat.eq_zero_or_pos m with rfl | hm
  · obtain ⟨a, b⟩ := h2 rfl
    rw [h1, a, b]; norm_num
  · obtain ⟨a, b⟩ := h3 hm
    rw [h1, a]
    have : 1 ≤ 2 ^ m := Nat.one_le_two_pow
    omega

private theorem loop_spec (q : Quad) : ∀ (k m : ℕ) (s : QState), m + k = 11 → Reached m s →
    ∃ r n, (∀ fuel, k < fuel → quadLoop q fuel s = some (r, n, n - 1)) ∧ n ≤ 16384 ∧ ∃ j, n = 8 * 2 ^ j := by
  intro k
  induction k with
  | zero =>
    intro m s hm hs
    have hm' : m = 11 := by omega
    have e := evals_after hs
    have hstr : s.strips = 16384 := by rw [hs.1, hm']; norm_num
    refine ⟨quadSimpson q s (quadPass q s), s.strips, ?_, hstr.le, m, hs.1⟩
    intro fuel hf
    obtain ⟨f, rfl⟩ := Nat.exists_eq_succ_of_ne_zero (by omega : fuel ≠ 0)
    simp only [quadLoop]
    rw [if_neg (by rw [hstr]; simp)]
    congr 3; omega
  | succ k ih =>
    intro m s hm hs
    have e := evals_after hs
    by_cases hc : |quadSimpson q s (quadPass q s) - s.refOld| > q.tol ∧ s.strips < 16384
    · have hnext : Reached (m + 1) ⟨quadSimpson q s (quadPass q s), s.strips + s.strips, 2, 0,
          (quadPass q s).fEven + (quadPass q s).fOdd, s.evals + (refroPoints s.strips s.step).length⟩ := by
        refine ⟨?_, fun h => by omega, fun _ => ⟨rfl, ?_⟩⟩
        · simp only [hs.1, pow_succ]; ring
        · simp only
          rw [e, hs.1, pow_succ]; ring
      obtain ⟨r, n, h1, h2, h3⟩ := ih (m + 1) _ (by omega) hnext
      refine ⟨r, n, ?_, h2, h3⟩
      intro fuel hf
      obtain ⟨f, rfl⟩ := Nat.exists_eq_succ_of_ne_zero (by omega : fuel ≠ 0)
      simp only [quadLoop]
      rw [if_pos hc]
      exact h1 f (by omega)
    · refine ⟨quadSimpson q s (quadPass q s), s.strips, ?_, ?_, m, hs.1⟩
      · intro fuel hf
        obtain ⟨f, rfl⟩ := Nat.exists_eq_succ_of_ne_zero (by omega : fuel ≠ 0)
        simp only [quadLoop]
        rw [if_neg hc]
        congr 3; omega
      · rw [hs.1]
        calc 8 * 2 ^ m ≤ 8 * 2 ^ 11 := Nat.mul_le_mul_left _ (Nat.pow_le_pow_right (by norm_num) (by omega))
          _ = 16384 := by norm_num

/-- Each adaptive quadrature stops within 12 passes whatever the integrand, end values and tolerance: the final number
    of strips is 8, 16, ... or 16384, and the interior integrand evaluations are one fewer. -/
theorem C54_quadrature (q : Quad) : ∃ r n, (∀ fuel, 12 ≤ fuel → quadLoop q fuel quadInit = some (r, n, n - 1)) ∧
    n ≤ 16384 ∧ ∃ j, n = 8 * 2 ^ j := by
  obtain ⟨r, n, h1, h2, h3⟩ := loop_spec q 11 0 quadInit (by norm_num)
    ⟨by simp [quadInit], fun _ => ⟨rfl, rfl⟩, fun h => by omega⟩
  exact ⟨r, n, fun f hf => h1 f (by omega), h2, h3⟩

/-- `refro` terminates for every input; more than twelve passes are never needed. -/
theorem C54_terminates (fuel : ℕ) (hf : 12 ≤ fuel) (ozd oh atk apm arh wl phi tlr eps : ℝ) :
    refroFuel fuel ozd oh atk apm arh wl phi tlr eps = some (refro ozd oh atk apm arh wl phi tlr eps) := by
  unfold refro refroFuel
  simp only
  obtain ⟨r1, n1, h1, -⟩ := C54_quadrature (refroQuads (min |drange ozd| 1.623156204)
    (refroTropo oh atk apm arh wl phi tlr).1 (refroTropo oh atk apm arh wl phi tlr).2 (min (max oh (-1e3)) 80000)
    (min (max |eps| 1e-12) 0.1 / 2)).1
  obtain ⟨r2, n2, h2, -⟩ := C54_quadrature (refroQuads (min |drange ozd| 1.623156204)
    (refroTropo oh atk apm arh wl phi tlr).1 (refroTropo oh atk apm arh wl phi tlr).2 (min (max oh (-1e3)) 80000)
    (min (max |eps| 1e-12) 0.1 / 2)).2
  rw [h1 fuel hf, h1 12 le_rfl, h2 fuel hf, h2 12 le_rfl]
  rfl

example : (12 : ℕ) ≤ 12 := le_rfl

/-- The refraction as a function of the reduced zenith distance: the two integrals for a zenith distance in [0,pi],
    signed. -/
private theorem refro_split (oh atk apm arh wl phi tlr eps : ℝ) : ∃ g : ℝ → ℝ, g 0 = 0 ∧
    ∀ ozd, refro ozd oh atk apm arh wl phi tlr eps =
      if drange ozd < 0 then -g (min |drange ozd| 1.623156204) else g (min |drange ozd| 1.623156204) := by
  set Q := fun z => refroQuads z (refroTropo oh atk apm arh wl phi tlr).1 (refroTropo oh atk apm arh wl phi tlr).2
    (min (max oh (-1e3)) 80000) (min (max |eps| 1e-12) 0.1 / 2) with hQ
  refine ⟨fun z => ((quadLoop (Q z).1 12 quadInit).getD (0, 0, 0)).1 + ((quadLoop (Q z).2 12 quadInit).getD (0, 0, 0)).1,
    ?_, fun ozd => ?_⟩
  · have zero : ∀ q : Quad, q.zRange = 0 → ((quadLoop q 12 quadInit).getD (0, 0, 0)).1 = 0 := by
      intro q hq
      have : ∀ fuel s, ∀ x, quadLoop q fuel s = some x → x.1 = 0 := by
        intro fuel
        induction fuel with
        | zero => intro s x h; cases h
        | succ n ih =>
          intro s x h
          simp only [quadLoop] at h
          by_cases hc : |quadSimpson q s (quadPass q s) - s.refOld| > q.tol ∧ s.strips < 16384
          · rw [if_pos hc] at h; exact ih _ _ h
          · rw [if_neg hc] at h
            cases h
            simp [quadSimpson, hq]
      cases h : quadLoop q 12 quadInit with
      | none => rfl
      | some x => exact this _ _ _ h
    have ha : refroAsin 0 = 0 := by
      simp [refroAsin, atan2_zero_of_nonneg]
    have z1 : (Q 0).1.zRange = 0 := by simp [hQ, refroQuads, ha]
    have z2 : (Q 0).2.zRange = 0 := by simp [hQ, refroQuads, ha]
    simp only [zero _ z1, zero _ z2, add_zero]
  · unfold refro refroFuel
    simp only
    obtain ⟨r1, n1, h1, -⟩ := C54_quadrature (Q (min |drange ozd| 1.623156204)).1
    obtain ⟨r2, n2, h2, -⟩ := C54_quadrature (Q (min |drange ozd| 1.623156204)).2
    have h1' := h1 12 le_rfl
    have h2' := h2 12 le_rfl
    simp only [hQ] at h1' h2'
    rw [h1', h2']
    simp only [Option.getD_some]

/-- The refraction is an odd function of zenith distance, zero at the zenith, and held beyond 93 degrees (1.623156204
    radians). -/
theorem C54_zenith_distance (oh atk apm arh wl phi tlr eps : ℝ) :
    (∀ z, refro (-z) oh atk apm arh wl phi tlr eps = -refro z oh atk apm arh wl phi tlr eps) ∧
    refro 0 oh atk apm arh wl phi tlr eps = 0 ∧
    (∀ z, 1.623156204 ≤ z → z < π →
      refro z oh atk apm arh wl phi tlr eps = refro 1.623156204 oh atk apm arh wl phi tlr eps) ∧
    (∀ z, |drange z| < π → ∀ k : ℤ, refro (z + 2 * π * k) oh atk apm arh wl phi tlr eps =
      refro z oh atk apm arh wl phi tlr eps) := by
  obtain ⟨g, g0, hg⟩ := refro_split oh atk apm arh wl phi tlr eps
  have hpi := pi_gt_d2
  have hmin : min (0 : ℝ) 1.623156204 = 0 := by norm_num
  refine ⟨fun z => ?_, ?_, fun z h1 h2 => ?_, fun z hz k => ?_⟩
  · rw [hg, hg, C15_drange_odd, abs_neg]
    rcases lt_trichotomy (drange z) 0 with h | h | h
    · rw [if_neg (by linarith), if_pos h, neg_neg]
    · rw [h, abs_zero, hmin, g0]; simp
    · rw [if_pos (by linarith), if_neg (by linarith)]
  · have : drange 0 = 0 := (C15_drange_laws 0).1 (by simpa using pi_pos)
    rw [hg, this, abs_zero, hmin, g0]; simp
  · have e1 : drange z = z := (C15_drange_laws z).1 (by rw [abs_of_pos (by norm_num at *; linarith)]; exact h2)
    have e2 : drange 1.623156204 = 1.623156204 :=
      (C15_drange_laws _).1 (by rw [abs_of_pos (by norm_num)]; norm_num at *; linarith)
    have hz : (0 : ℝ) < z := by norm_num at *; linarith
    rw [hg, hg, e1, e2, if_neg (by linarith), if_neg (by norm_num), abs_of_pos hz, abs_of_pos (by norm_num), min_self,
      min_eq_right h1]
  · rw [hg, hg, ((C15_drange_laws z).2 hz).2 k]

example : (1.623156204 : ℝ) ≤ 2 ∧ (2 : ℝ) < π ∧ |drange 1| < π := by
  have hpi := pi_gt_three
  refine ⟨by norm_num, by linarith, ?_⟩
  rw [(C15_drange_laws 1).1 (by rw [abs_one]; linarith), abs_one]; linarith

/-- The other arguments enter only through their documented limits. -/
theorem C54_limits (ozd oh atk apm arh wl phi tlr eps : ℝ) :
    refro ozd (min (max oh (-1000)) 80000) (min (max atk 100) 500) (min (max apm 0) 10000) (min (max arh 0) 1)
      (max wl 0.1) phi (min (max |tlr| 0.001) 0.01) (min (max |eps| 1e-12) 0.1) =
    refro ozd oh atk apm arh wl phi tlr eps := by
  have clamp : ∀ x a b : ℝ, a ≤ b → min (max (min (max x a) b) a) b = min (max x a) b := by
    intro x a b h
    rw [max_eq_left (le_min (le_max_right _ _) h), min_assoc, min_self]
  have clampa : ∀ x a b : ℝ, 0 ≤ a → a ≤ b → min (max |min (max |x| a) b| a) b = min (max |x| a) b := by
    intro x a b h0 h
    have : 0 ≤ min (max |x| a) b := le_min (le_max_of_le_left (abs_nonneg _)) (h0.trans h)
    rw [abs_of_nonneg this, clamp _ _ _ h]
  have e1 : min (max (min (max oh (-1000)) 80000) (-1000)) 80000 = min (max oh (-1000)) 80000 :=
    clamp _ _ _ (by norm_num)
  have e1' : (-1e3 : ℝ) = -1000 := by norm_num
  have e2 := clamp atk 100 500 (by norm_num)
  have e3 := clamp apm 0 10000 (by norm_num)
  have e4 := clamp arh 0 1 (by norm_num)
  have e5 : max (max wl 0.1) 0.1 = max wl 0.1 := by rw [max_assoc, max_self]
  have e6 := clampa tlr 0.001 0.01 (by norm_num) (by norm_num)
  have e7 := clampa eps 1e-12 0.1 (by norm_num) (by norm_num)
  unfold refro refroFuel refroTropo
  simp only [e1', e1, e2, e3, e4, e5, e6, e7]

/-- Without air there is no refraction. -/
theorem C54_vacuum (ozd oh atk apm arh wl phi tlr eps : ℝ) (h : apm ≤ 0) :
    refro ozd oh atk apm arh wl phi tlr eps = 0 := by
  have hp : min (max apm 0) 10000 = 0 := by rw [max_eq_right h]; norm_num
  have c : (refroTropo oh atk apm arh wl phi tlr).1.c1 = 0 ∧ (refroTropo oh atk apm arh wl phi tlr).1.c2 = 0 ∧
      (refroTropo oh atk apm arh wl phi tlr).1.c3 = 0 ∧ (refroTropo oh atk apm arh wl phi tlr).1.c4 = 0 ∧
      (refroTropo oh atk apm arh wl phi tlr).1.c5 = 0 ∧ (refroTropo oh atk apm arh wl phi tlr).1.c6 = 0 := by
    simp [refroTropo, hp]
  obtain ⟨k1, k2, k3, k4, k5, k6⟩ := c
  have ht : ∀ r, atmt (refroTropo oh atk apm arh wl phi tlr).1 r = (1, 0) := by
    intro r
    simp [atmt, k1, k2, k3, k4, k5, k6]
  have hs : ∀ rt tt gamal r, atms rt tt 1 gamal r = (1, 0) := by
    intro rt tt gamal r
    simp [atms]
  have zero : ∀ q : Quad, (∀ r, q.atm r = (1, 0)) → q.fb = 0 → q.ff = 0 →
      ((quadLoop q 12 quadInit).getD (0, 0, 0)).1 = 0 := by
    intro q hq hb hf
    have pass : ∀ (l : List ℕ) h st r, (l.foldl (refroPoint q h st) ⟨r, 0, 0⟩).fOdd = 0 ∧
        (l.foldl (refroPoint q h st) ⟨r, 0, 0⟩).fEven = 0 := by
      intro l h st
      induction l with
      | nil => intro r; exact ⟨rfl, rfl⟩
      | cons i l ih =>
        intro r
        rw [List.foldl_cons]
        have : ∃ r', refroPoint q h st ⟨r, 0, 0⟩ i = ⟨r', 0, 0⟩ := by
          simp only [refroPoint, hq, refroIntegrand, zero_div, add_zero, ite_self]
          exact ⟨_, rfl⟩
        obtain ⟨r', hr'⟩ := this
        rw [hr']; exact ih r'
    have : ∀ fuel s, s.fOdd = 0 → s.fEven = 0 → ∀ x, quadLoop q fuel s = some x → x.1 = 0 := by
      intro fuel
      induction fuel with
      | zero => intro s _ _ x h; cases h
      | succ n ih =>
        intro s h1 h2 x h
        have p1 : (quadPass q s).fOdd = 0 := by
          have := (pass (refroPoints s.strips s.step) (q.zRange / s.strips) s.step q.rStart).1
          unfold quadPass; rw [h1, h2]; exact this
        have p2 : (quadPass q s).fEven = 0 := by
          have := (pass (refroPoints s.strips s.step) (q.zRange / s.strips) s.step q.rStart).2
          unfold quadPass; rw [h1, h2]; exact this
        simp only [quadLoop] at h
        by_cases hc : |quadSimpson q s (quadPass q s) - s.refOld| > q.tol ∧ s.strips < 16384
        · rw [if_pos hc] at h; exact ih _ rfl (by simp [p1, p2]) _ h
        · rw [if_neg hc] at h
          cases h
          simp [quadSimpson, hb, hf, p1, p2]
    cases h : quadLoop q 12 quadInit with
    | none => rfl
    | some x => exact this _ _ rfl rfl _ h
  unfold refro refroFuel
  simp only
  set a := refroTropo oh atk apm arh wl phi tlr
  set q := refroQuads (min |drange ozd| 1.623156204) a.1 a.2 (min (max oh (-1e3)) 80000) (min (max |eps| 1e-12) 0.1 / 2) with hq
  have z1 := zero q.1 (by intro r; simp only [hq, refroQuads]; exact ht r) (by simp [hq, refroQuads, ht, refroIntegrand])
    (by simp [hq, refroQuads, ht, refroIntegrand])
  have z2 := zero q.2 (by intro r; simp only [hq, refroQuads, ht]; exact hs _ _ _ r)
    (by simp [hq, refroQuads, ht, hs, refroIntegrand]) (by simp [hq, refroQuads, ht, hs, refroIntegrand])
  obtain ⟨r1, n1, h1, -⟩ := C54_quadrature q.1
  obtain ⟨r2, n2, h2, -⟩ := C54_quadrature q.2
  rw [h1 12 le_rfl] at z1 ⊢
  rw [h2 12 le_rfl] at z2 ⊢
  simp only [Option.getD_some] at z1 z2 ⊢
  simp [z1, z2]

example : (0 : ℝ) ≤ 0 := le_rfl

/-- A division by zero inside the documented limits: for some accepted latitude, height and lapse rate the divisor
    18.36 - gamma of the humidity term (`gamma` is the second component of the model atmosphere over the lapse rate) is
    zero, though the lapse rate is within [0.001, 0.01] deg/m. -/
theorem C54_singular (atk apm arh wl : ℝ) : ∃ oh phi tlr : ℝ, -1000 ≤ oh ∧ oh ≤ 80000 ∧ |phi| ≤ π / 2 ∧
    0.001 < tlr ∧ tlr < 0.01 ∧ (refroTropo oh atk apm arh wl phi tlr).1.alpha = tlr ∧
    18.36 - (refroTropo oh atk apm arh wl phi tlr).2 / tlr = 0 := by
  have hc : Real.cos (π / 4 + π / 4) = 0 := by rw [show π / 4 + π / 4 = π / 2 by ring]; exact cos_pi_div_two
  have hp := pi_pos
  refine ⟨0, π / 4, 9.784 * 28.9644 / 8314.32 / 18.36, by norm_num, by norm_num, ?_, by norm_num, by norm_num, ?_, ?_⟩
  · rw [abs_of_pos (by positivity)]; linarith
  · simp only [refroTropo]
    rw [abs_of_pos (by norm_num), max_eq_left (by norm_num), min_eq_left (by norm_num)]
  · simp only [refroTropo, hc]
    rw [show min (max (0 : ℝ) (-1e3)) 80000 = 0 by norm_num]
    norm_num

end Sla.Props
