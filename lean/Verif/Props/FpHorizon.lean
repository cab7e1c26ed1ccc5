import Verif.Model.FpSphere
import Verif.Lemmas.FpSphere
import Verif.Props.Horizon
import Verif.Props.FpRange

/-
Property theorems C93: horizon coordinates, zenith distance, bearing and parallactic angle in double precision.
-/
namespace Sla.Props
open Sla.Fp Sla.Spec Matrix

private theorem u_pos : (0 : ℝ) ≤ 1 / 2 ^ 53 := by norm_num

/-! ### The vector -/

private theorem vec_near (R : Rounding binary64) (sn cs : ℝ → ℝ) {ε : ℝ} (hε : ε ≤ 1e-3) (hs : ∀ a, |sn a - Real.sin a| ≤ ε)
    (hc : ∀ a, |cs a - Real.cos a| ≤ ε) (a b p : ℝ) :
    len (horizonVector R sn cs a b p - ![hx a b p, hy a b, hz a b p]) ≤ 7.6 * ε + 6 * (1 / 2 ^ 53) := by
  have ε0 : 0 ≤ ε := (abs_nonneg _).trans (hs 0)
  have u0 := u_pos
  have u1 : (1 : ℝ) / 2 ^ 53 ≤ 1e-5 := by norm_num
  have hcn : |(-cs a) - -Real.cos a| ≤ ε := by rw [show -cs a - -Real.cos a = -(cs a - Real.cos a) by ring, abs_neg]; exact hc a
  have hsn : |(-sn a) - -Real.sin a| ≤ ε := by rw [show -sn a - -Real.sin a = -(sn a - Real.sin a) by ring, abs_neg]; exact hs a
  have lε : ε ≤ 0.01 := hε.trans (by norm_num)
  have c1 := Real.abs_cos_le_one
  have s1 := Real.abs_sin_le_one
  have cc : ∀ x y : ℝ, |x| ≤ 1 → |y| ≤ 1 → |x * y| ≤ 1 := fun x y hx hy => by
    rw [abs_mul]; calc |x| * |y| ≤ 1 * 1 := mul_le_mul hx hy (abs_nonneg _) one_pos.le
      _ = 1 := by norm_num
  have hu := h_unit a b p
  have ux : |hx a b p| ≤ 1 := by rw [abs_le]; constructor <;> nlinarith [mul_self_nonneg (hy a b), mul_self_nonneg (hz a b p)]
  have uz : |hz a b p| ≤ 1 := by rw [abs_le]; constructor <;> nlinarith [mul_self_nonneg (hy a b), mul_self_nonneg (hx a b p)]
  have y1 : |R (-sn a * cs b) - hy a b| ≤ 2.02 * ε + 1.03 * (1 / 2 ^ 53) := by
    refine (mul_near R hsn (hc b) (by rw [abs_neg]; exact s1 _) (c1 _) lε lε).trans (le_of_eq ?_)
    ring
  have x1 : |R (R (R (-cs a * cs b) * sn p) + R (sn b * cs p)) - hx a b p| ≤ 5.13 * ε + 4.15 * (1 / 2 ^ 53) := by
    have m1 := mul_near R hcn (hc b) (by rw [abs_neg]; exact c1 _) (c1 _) lε lε
    have m2 := mul_near R m1 (hs p) (cc _ _ (by rw [abs_neg]; exact c1 _) (c1 _)) (s1 _) (by linarith) lε
    have m3 := mul_near R (hs b) (hc p) (s1 _) (c1 _) lε lε
    refine (add_near R m2 m3 ux).trans ?_
    linarith
  have z1 : |R (R (R (cs a * cs b) * cs p) + R (sn b * sn p)) - hz a b p| ≤ 5.13 * ε + 4.15 * (1 / 2 ^ 53) := by
    have m1 := mul_near R (hc a) (hc b) (c1 _) (c1 _) lε lε
    have m2 := mul_near R m1 (hc p) (cc _ _ (c1 _) (c1 _)) (c1 _) (by linarith) lε
    have m3 := mul_near R (hs b) (hs p) (s1 _) (s1 _) lε lε
    refine (add_near R m2 m3 uz).trans ?_
    linarith
  rw [len_eq]
  apply Real.sqrt_le_iff.2
  refine ⟨by positivity, ?_⟩
  show (R (R (R (-cs a * cs b) * sn p) + R (sn b * cs p)) - hx a b p) * (R (R (R (-cs a * cs b) * sn p) + R (sn b * cs p)) - hx a b p) +
    (R (-sn a * cs b) - hy a b) * (R (-sn a * cs b) - hy a b) +
    (R (R (R (cs a * cs b) * cs p) + R (sn b * sn p)) - hz a b p) * (R (R (R (cs a * cs b) * cs p) + R (sn b * sn p)) - hz a b p) ≤ _
  have sq : ∀ x B : ℝ, |x| ≤ B → x * x ≤ B * B := fun x B h => by
    rw [← abs_mul_abs_self]; exact mul_self_le_mul_self (abs_nonneg _) h
  have k1 := sq _ _ x1
  have k2 := sq _ _ y1
  have k3 := sq _ _ z1
  refine (add_le_add (add_le_add k1 k2) k3).trans ?_
  generalize (1 : ℝ) / 2 ^ 53 = u at *
  nlinarith [mul_nonneg ε0 u0, mul_self_nonneg ε, mul_self_nonneg u]

private theorem w_len (a b p : ℝ) : len ![hx a b p, hy a b, hz a b p] = 1 := by
  rw [len_eq]; simp only [cons_val_zero, cons_val_one, cons_val]; rw [h_unit, Real.sqrt_one]

private theorem vec_len (R : Rounding binary64) (sn cs : ℝ → ℝ) {ε : ℝ} (hε : ε ≤ 1e-3) (hs : ∀ a, |sn a - Real.sin a| ≤ ε)
    (hc : ∀ a, |cs a - Real.cos a| ≤ ε) (a b p : ℝ) :
    0.9 ≤ len (horizonVector R sn cs a b p) ∧ len (horizonVector R sn cs a b p) ≤ 1.01 := by
  have h := vec_near R sn cs hε hs hc a b p
  have h1 := len_sub_le (horizonVector R sn cs a b p) (horizonVector R sn cs a b p - ![hx a b p, hy a b, hz a b p])
  have h2 := len_add_le (horizonVector R sn cs a b p - ![hx a b p, hy a b, hz a b p]) ![hx a b p, hy a b, hz a b p]
  rw [sub_sub_cancel, w_len] at h1
  rw [sub_add_cancel, w_len] at h2
  have u1 : (1 : ℝ) / 2 ^ 53 ≤ 1e-5 := by norm_num
  constructor <;> linarith

/-! ### From the horizon frame to the equatorial frame -/

private noncomputable def toEquator (p : ℝ) (v : Vec) : Vec :=
  ![-(v 0 * Real.sin p) + v 2 * Real.cos p, v 1, v 0 * Real.cos p + v 2 * Real.sin p]

private theorem toEquator_dot (p : ℝ) (u v : Vec) : toEquator p u ⬝ᵥ toEquator p v = u ⬝ᵥ v := by
  have h := Real.sin_sq_add_cos_sq p
  simp only [toEquator, dotProduct, Fin.sum_univ_three, cons_val_zero, cons_val_one, cons_val]
  linear_combination (u 0 * v 0 + u 2 * v 2) * h

private theorem angle_congr {u v u' v' : Vec} (h1 : u ⬝ᵥ v = u' ⬝ᵥ v') (h2 : u ⬝ᵥ u = u' ⬝ᵥ u') (h3 : v ⬝ᵥ v = v' ⬝ᵥ v') :
    angleBetween u v = angleBetween u' v' := by
  unfold angleBetween InnerProductGeometry.angle
  rw [norm_toLp, norm_toLp, norm_toLp, norm_toLp, inner_toLp, inner_toLp, h1, h2, h3]

private theorem toEquator_angle (p : ℝ) (u v : Vec) : angleBetween (toEquator p u) (toEquator p v) = angleBetween u v :=
  angle_congr (toEquator_dot _ _ _) (toEquator_dot _ _ _) (toEquator_dot _ _ _)

private theorem toEquator_horizon (az el p : ℝ) : toEquator p (direction az el) = horizonDirection az el p := by
  rw [horizonDirection_eq, direction_eq]
  funext i
  fin_cases i
  · change -(Real.cos az * Real.cos el * Real.sin p) + Real.sin el * Real.cos p =
      -(Real.cos el * Real.cos az * Real.sin p) + Real.sin el * Real.cos p
    ring
  · change Real.sin az * Real.cos el = Real.cos el * Real.sin az
    ring
  · change Real.cos az * Real.cos el * Real.cos p + Real.sin el * Real.sin p =
      Real.cos el * Real.cos az * Real.cos p + Real.sin el * Real.sin p
    ring

private theorem toEquator_star (a b p : ℝ) : toEquator p ![hx a b p, hy a b, hz a b p] = direction (-a) b := by
  have h3 := Real.sin_sq_add_cos_sq p
  rw [star_eq]
  unfold hx hy hz
  funext i
  fin_cases i <;> simp [toEquator] <;> grind

/-- the transformation is its own inverse up to the sense of the first coordinate -/
private theorem toEquator_w (a b p : ℝ) : toEquator p (direction (-a) b) = ![hx a b p, hy a b, hz a b p] := by
  have h3 := Real.sin_sq_add_cos_sq p
  rw [star_eq]
  unfold hx hy hz
  funext i
  fin_cases i <;> simp [toEquator] <;> ring

private theorem toEquator_back (az el p : ℝ) : toEquator p (horizonDirection az el p) = direction az el := by
  have h3 := Real.sin_sq_add_cos_sq p
  rw [horizonDirection_eq, direction_eq]
  funext i
  fin_cases i <;> simp [toEquator] <;> grind

/-! ### The polar angles -/

private theorem at2_turn {at2 : ℝ → ℝ → ℝ} {ε : ℝ} (ha : Atan2Near at2 ε) (y x : ℝ) :
    ∃ k : ℤ, |at2 y x - (atan2 y x + 2 * Real.pi * k)| ≤ ε ∧ |at2 y x| ≤ Real.pi + ε := by
  have hm := atan2_mem y x
  by_cases h : y ≠ 0 ∨ 0 ≤ x
  · have := ha.1 y x h
    refine ⟨0, by simpa using this, ?_⟩
    rw [abs_le] at *; constructor <;> linarith [this.1, this.2]
  · push Not at h
    obtain ⟨rfl, hx⟩ := h
    have e : atan2 0 x = Real.pi := by
      refine atan2_unique (r := -x) (by linarith) (by linarith [Real.pi_pos]) le_rfl (by simp) (by simp)
    rcases ha.2 x hx with h | h
    · refine ⟨0, by rw [e]; simpa using h, ?_⟩
      rw [abs_le] at *; constructor <;> linarith [h.1, h.2, Real.pi_pos]
    · refine ⟨-1, by rw [e]; push_cast; rw [show at2 0 x - (Real.pi + 2 * Real.pi * -1) = at2 0 x + Real.pi by ring]; exact h, ?_⟩
      rw [abs_le] at *; constructor <;> linarith [h.1, h.2, Real.pi_pos]

private theorem two_pi_const (R : Rounding binary64) : R 6.283185307179586476925286766559 = 884279719003555 / 2 ^ 47 := by
  have h := R.eq_of_near (x := 6.283185307179586476925286766559) (m := 7074237752028440) (e := -50)
    (by simp [binary64]) (by norm_num [binary64]) (by norm_num [binary64])
    (by rw [abs_lt]; norm_num)
  rw [h]; norm_num

private theorem pi_gap : (884279719003555 : ℝ) / 2 ^ 47 < 2 * Real.pi ∧ 2 * Real.pi < 884279719003555 / 2 ^ 47 + 2.5e-16 := by
  have h1 := Real.pi_gt_d20
  have h2 := Real.pi_lt_d20
  constructor
  · refine lt_trans ?_ (mul_lt_mul_of_pos_left h1 two_pos); norm_num
  · refine lt_trans (mul_lt_mul_of_pos_left h2 two_pos) ?_; norm_num

/-- Azimuths brought into the range 0 to 2 pi. -/
private theorem wrap_near (R : Rounding binary64) {a a0 ε : ℝ} (hε : ε ≤ 0.1) (h : ∃ k : ℤ, |a - (a0 + 2 * Real.pi * k)| ≤ ε)
    (hr : |a| ≤ Real.pi + ε) :
    let w := if a < 0 then R (a + R 6.283185307179586476925286766559) else a
    (∃ k : ℤ, |w - (a0 + 2 * Real.pi * k)| ≤ ε + 7e-16) ∧ 0 ≤ w ∧ w < 2 * Real.pi := by
  intro w
  obtain ⟨k, hk⟩ := h
  obtain ⟨g1, g2⟩ := pi_gap
  have hp1 := Real.pi_gt_d6
  have hp2 := Real.pi_lt_d6
  rw [abs_le] at hr
  by_cases hn : a < 0
  · have hw : w = R (a + 884279719003555 / 2 ^ 47) := by simp only [w]; rw [if_pos hn, two_pi_const]
    have hA : (2.5e-16 : ℝ) ≤ 0.1 := by norm_num
    have hlow : 0 ≤ a + 884279719003555 / 2 ^ 47 := by
      clear_value w
      generalize (884279719003555 : ℝ) / 2 ^ 47 = A at *
      linarith [hr.1]
    have hb : |a + 884279719003555 / 2 ^ 47| < 2 ^ (3 : ℤ) := by
      rw [abs_of_nonneg hlow]
      generalize (884279719003555 : ℝ) / 2 ^ 47 = A at *
      have : (2 : ℝ) ^ (3 : ℤ) = 8 := by norm_num
      rw [this]; linarith
    have he := R.abs_sub_le _ (k := 3) (by norm_num [binary64]) hb
    rw [← hw] at he
    have h51 : (2 : ℝ) ^ (3 - 1 - (binary64.prec : ℤ)) ≤ 4.45e-16 := by norm_num [binary64]
    have he2 := he.trans h51
    have hrep : binary64.Rep (884279719003555 / 2 ^ 47 : ℝ) := two_pi_const R ▸ R.rep _
    refine ⟨⟨k + 1, ?_⟩, ?_, ?_⟩
    · push_cast
      rw [abs_le] at hk he2 ⊢
      generalize (884279719003555 : ℝ) / 2 ^ 47 = A at *
      clear hw hb he
      clear_value w
      norm_num at *
      constructor <;> linarith [hk.1, hk.2, he2.1, he2.2]
    · rw [hw]; exact R.nonneg hlow
    · rw [hw]
      refine lt_of_le_of_lt (R.le_rep ?_ hrep) g1
      linarith
  · have hw : w = a := by simp only [w]; rw [if_neg hn]
    rw [hw]
    refine ⟨⟨k, hk.trans (by norm_num)⟩, not_lt.1 hn, ?_⟩
    linarith [hr.2]

/-- C93: in double precision `de2h` returns an azimuth in the range 0 to 2 pi and a direction that is within 5.7e-15 rad of the
    star, plus 12 times the error of the library's sines and cosines and 3.2 times that of `atan2`. -/
theorem C93_de2h (R : Rounding binary64) (sn cs : ℝ → ℝ) (at2 : ℝ → ℝ → ℝ) {ε ε' : ℝ} (hε : ε ≤ 1e-3) (hε' : ε' ≤ 0.1)
    (hs : ∀ a, |sn a - Real.sin a| ≤ ε) (hc : ∀ a, |cs a - Real.cos a| ≤ ε) (ha : Atan2Near at2 ε')
    (dir : Spherical) (phi : ℝ) :
    let h := Fp.de2h R sn cs at2 dir phi
    angleBetween (horizonDirection h.az h.el phi) (direction (-dir.a) dir.b) ≤ 5.7e-15 + 12 * ε + 3.2 * ε' ∧
      0 ≤ h.az ∧ h.az < 2 * Real.pi ∧ |h.el| ≤ Real.pi / 2 + ε' := by
  intro h
  have ε0 : 0 ≤ ε := (abs_nonneg _).trans (hs 0)
  have ε0' : 0 ≤ ε' := (abs_nonneg _).trans (ha.1 0 0 (Or.inr le_rfl))
  have hpi := Real.pi_pos
  have hnear := vec_near R sn cs hε hs hc dir.a dir.b phi
  have hlen := (vec_len R sn cs hε hs hc dir.a dir.b phi).1
  have haz : h.az = (open Classical in if R (Real.sqrt (R (R (horizonVector R sn cs dir.a dir.b phi 0 * horizonVector R sn cs dir.a dir.b phi 0) +
      R (horizonVector R sn cs dir.a dir.b phi 1 * horizonVector R sn cs dir.a dir.b phi 1)))) = 0 then 0 else
      if at2 (horizonVector R sn cs dir.a dir.b phi 1) (horizonVector R sn cs dir.a dir.b phi 0) < 0 then
        R (at2 (horizonVector R sn cs dir.a dir.b phi 1) (horizonVector R sn cs dir.a dir.b phi 0) +
          R 6.283185307179586476925286766559)
      else at2 (horizonVector R sn cs dir.a dir.b phi 1) (horizonVector R sn cs dir.a dir.b phi 0)) := rfl
  have hel : h.el = at2 (horizonVector R sn cs dir.a dir.b phi 2) (R (Real.sqrt (R (R (horizonVector R sn cs dir.a dir.b phi 0 * horizonVector R sn cs dir.a dir.b phi 0) +
      R (horizonVector R sn cs dir.a dir.b phi 1 * horizonVector R sn cs dir.a dir.b phi 1))))) := rfl
  have hw := w_len dir.a dir.b phi
  rw [← toEquator_horizon, ← toEquator_star dir.a dir.b phi, toEquator_angle]
  generalize horizonVector R sn cs dir.a dir.b phi = v at *
  generalize ![hx dir.a dir.b phi, hy dir.a dir.b, hz dir.a dir.b phi] = w at *
  have hr0 : 0 ≤ R (Real.sqrt (R (R (v 0 * v 0) + R (v 1 * v 1)))) := R.nonneg (Real.sqrt_nonneg _)
  obtain ⟨k, hk, hkr⟩ := at2_turn ha (v 1) (v 0)
  have hwrap := wrap_near R hε' ⟨k, hk⟩ hkr
  have hel1 := ha.1 (v 2) _ (Or.inr hr0)
  rw [← hel] at hel1
  have hlat := atan2_abs_le_half_pi (y := v 2) hr0
  have hp := polar_near R v hlen (az := h.az) (el := h.el) (α := ε' + 7e-16) (β := ε') (fun hr => by
    rw [haz, if_neg hr]; exact hwrap.1) hel1 (by norm_num; linarith) (by norm_num at *; linarith)
  have hv := fp_angle_near hw (by norm_num at *; linarith) hnear
  refine ⟨?_, ?_, ?_, ?_⟩
  · refine (angle_triangle _ v _).trans ((add_le_add hp hv).trans ?_)
    have hpi2 : Real.pi / 2 ≤ 1.5708 := by have := Real.pi_lt_d6; norm_num at *; linarith
    have : Real.pi / 2 * (ε' + 7e-16 + ε' + 2.2e-15) + Real.pi / 2 * (7.6 * ε + 6 * (1 / 2 ^ 53)) =
      Real.pi / 2 * (ε' + 7e-16 + ε' + 2.2e-15 + (7.6 * ε + 6 * (1 / 2 ^ 53))) := by ring
    rw [this]
    refine (mul_le_mul_of_nonneg_right hpi2 (by positivity)).trans ?_
    norm_num
    linarith
  · rw [haz]; split_ifs with h1 h2
    · exact le_rfl
    · have := hwrap.2.1; rwa [if_pos h2] at this
    · exact not_lt.1 h2
  · rw [haz]
    by_cases h1 : R (Real.sqrt (R (R (v 0 * v 0) + R (v 1 * v 1)))) = 0
    · rw [if_pos h1]; linarith
    · rw [if_neg h1]; exact hwrap.2.2
  · have := abs_add_le (h.el - atan2 (v 2) (R (Real.sqrt (R (R (v 0 * v 0) + R (v 1 * v 1))))))
      (atan2 (v 2) (R (Real.sqrt (R (R (v 0 * v 0) + R (v 1 * v 1))))))
    rw [sub_add_cancel] at this
    linarith

/-- C93: likewise `dh2e`: the star at the hour angle and declination returned is within 4.6e-15 rad of the direction given, plus 12
    times the error of the library's sines and cosines and 3.2 times that of `atan2`. -/
theorem C93_dh2e (R : Rounding binary64) (sn cs : ℝ → ℝ) (at2 : ℝ → ℝ → ℝ) {ε ε' : ℝ} (hε : ε ≤ 1e-3) (hε' : ε' ≤ 0.1)
    (hs : ∀ a, |sn a - Real.sin a| ≤ ε) (hc : ∀ a, |cs a - Real.cos a| ≤ ε) (ha : Atan2Near at2 ε') (az el phi : ℝ) :
    let d := Fp.dh2e R sn cs at2 az el phi
    angleBetween (direction (-d.a) d.b) (horizonDirection az el phi) ≤ 4.6e-15 + 12 * ε + 3.2 * ε' ∧
      |d.a| ≤ Real.pi + ε' ∧ |d.b| ≤ Real.pi / 2 + ε' := by
  intro d
  have ε0 : 0 ≤ ε := (abs_nonneg _).trans (hs 0)
  have ε0' : 0 ≤ ε' := (abs_nonneg _).trans (ha.1 0 0 (Or.inr le_rfl))
  have hpi := Real.pi_pos
  have hnear := vec_near R sn cs hε hs hc az el phi
  have hlen := (vec_len R sn cs hε hs hc az el phi).1
  have hda : d.a = (open Classical in if R (Real.sqrt (R (R (horizonVector R sn cs az el phi 0 * horizonVector R sn cs az el phi 0) +
      R (horizonVector R sn cs az el phi 1 * horizonVector R sn cs az el phi 1)))) = 0 then 0 else
      at2 (horizonVector R sn cs az el phi 1) (horizonVector R sn cs az el phi 0)) := rfl
  have hdb : d.b = at2 (horizonVector R sn cs az el phi 2) (R (Real.sqrt (R (R (horizonVector R sn cs az el phi 0 * horizonVector R sn cs az el phi 0) +
      R (horizonVector R sn cs az el phi 1 * horizonVector R sn cs az el phi 1))))) := rfl
  have hw := w_len az el phi
  -- both sides reflected in the meridian
  have hrefl : angleBetween (direction (-d.a) d.b) (horizonDirection az el phi) =
      angleBetween (direction d.a d.b) ![hx az el phi, hy az el, hz az el phi] := by
    apply angle_congr
    · rw [horizonDirection_eq, direction_eq, direction_eq]
      simp only [dotProduct, Fin.sum_univ_three, cons_val_zero, cons_val_one, cons_val, Real.cos_neg, Real.sin_neg, hx, hy, hz]
      ring
    · rw [direction_eq, direction_eq]
      simp only [dotProduct, Fin.sum_univ_three, cons_val_zero, cons_val_one, cons_val, Real.cos_neg, Real.sin_neg]
      ring
    · rw [horizonDirection_eq]
      simp only [dotProduct, Fin.sum_univ_three, cons_val_zero, cons_val_one, cons_val, hx, hy, hz]
      ring
  rw [hrefl]
  generalize horizonVector R sn cs az el phi = v at *
  generalize ![hx az el phi, hy az el, hz az el phi] = w at *
  have hr0 : 0 ≤ R (Real.sqrt (R (R (v 0 * v 0) + R (v 1 * v 1)))) := R.nonneg (Real.sqrt_nonneg _)
  obtain ⟨k, hk, hkr⟩ := at2_turn ha (v 1) (v 0)
  have hel1 := ha.1 (v 2) _ (Or.inr hr0)
  rw [← hdb] at hel1
  have hlat := atan2_abs_le_half_pi (y := v 2) hr0
  have hp := polar_near R v hlen (az := d.a) (el := d.b) (α := ε') (β := ε') (fun hr => by
    rw [hda, if_neg hr]; exact ⟨k, hk⟩) hel1 ε0' (by norm_num at *; linarith)
  have hv := fp_angle_near hw (by norm_num at *; linarith) hnear
  refine ⟨?_, ?_, ?_⟩
  · refine (angle_triangle _ v _).trans ((add_le_add hp hv).trans ?_)
    have hpi2 : Real.pi / 2 ≤ 1.5708 := by have := Real.pi_lt_d6; norm_num at *; linarith
    have : Real.pi / 2 * (ε' + ε' + 2.2e-15) + Real.pi / 2 * (7.6 * ε + 6 * (1 / 2 ^ 53)) =
      Real.pi / 2 * (ε' + ε' + 2.2e-15 + (7.6 * ε + 6 * (1 / 2 ^ 53))) := by ring
    rw [this]
    refine (mul_le_mul_of_nonneg_right hpi2 (by positivity)).trans ?_
    norm_num
    linarith
  · rw [hda]
    split_ifs
    · rw [abs_zero]; linarith
    · exact hkr
  · have := abs_add_le (d.b - atan2 (v 2) (R (Real.sqrt (R (R (v 0 * v 0) + R (v 1 * v 1))))))
      (atan2 (v 2) (R (Real.sqrt (R (R (v 0 * v 0) + R (v 1 * v 1))))))
    rw [sub_add_cancel] at this
    linarith

/-- C93: to the horizon and back returns the star to 1.1e-14 rad plus the errors of the library. -/
theorem C93_round_trip (R : Rounding binary64) (sn cs : ℝ → ℝ) (at2 : ℝ → ℝ → ℝ) {ε ε' : ℝ} (hε : ε ≤ 1e-3) (hε' : ε' ≤ 0.1)
    (hs : ∀ a, |sn a - Real.sin a| ≤ ε) (hc : ∀ a, |cs a - Real.cos a| ≤ ε) (ha : Atan2Near at2 ε')
    (dir : Spherical) (phi : ℝ) :
    let h := Fp.de2h R sn cs at2 dir phi
    let d := Fp.dh2e R sn cs at2 h.az h.el phi
    angleBetween (direction (-d.a) d.b) (direction (-dir.a) dir.b) ≤ 1.1e-14 + 24 * ε + 6.4 * ε' := by
  intro h d
  have h1 := (C93_de2h R sn cs at2 hε hε' hs hc ha dir phi).1
  have h2 := (C93_dh2e R sn cs at2 hε hε' hs hc ha h.az h.el phi).1
  refine (angle_triangle _ _ _).trans ((add_le_add h2 h1).trans ?_)
  norm_num
  linarith

/-- C93: the zenith distance is right to 1.8e-15 rad plus 12 times the error of the library's sines and cosines plus that of
    `atan2`. -/
theorem C93_zd (R : Rounding binary64) (sn cs : ℝ → ℝ) (at2 : ℝ → ℝ → ℝ) {ε ε' : ℝ} (hε : ε ≤ 1e-3)
    (hs : ∀ a, |sn a - Real.sin a| ≤ ε) (hc : ∀ a, |cs a - Real.cos a| ≤ ε) (ha : ∀ y x, |at2 y x - atan2 y x| ≤ ε')
    (dir : Spherical) (phi : ℝ) :
    |Fp.zd R sn cs at2 dir phi - angleBetween (direction (-dir.a) dir.b) (direction 0 phi)| ≤ 1.8e-15 + 12 * ε + ε' := by
  have ε0 : 0 ≤ ε := (abs_nonneg _).trans (hs 0)
  have hzd : Fp.zd R sn cs at2 dir phi = at2 (R (Real.sqrt (R (R (horizonVector R sn cs dir.a dir.b phi 0 * horizonVector R sn cs dir.a dir.b phi 0) +
      R (horizonVector R sn cs dir.a dir.b phi 1 * horizonVector R sn cs dir.a dir.b phi 1))))) (horizonVector R sn cs dir.a dir.b phi 2) := by
    have e0 : horizonVector R sn cs dir.a dir.b phi 0 =
        -R (R (R (cs dir.a * cs dir.b) * sn phi) - R (sn dir.b * cs phi)) := by
      show R (R (R (-cs dir.a * cs dir.b) * sn phi) + R (sn dir.b * cs phi)) = _
      have o1 : R (-cs dir.a * cs dir.b) = -R (cs dir.a * cs dir.b) := by rw [neg_mul, R.odd]
      have o2 : R (-R (cs dir.a * cs dir.b) * sn phi) = -R (R (cs dir.a * cs dir.b) * sn phi) := by rw [neg_mul, R.odd]
      rw [o1, o2, neg_add_eq_sub, ← neg_sub, R.odd]
    have e1 : horizonVector R sn cs dir.a dir.b phi 1 = -R (sn dir.a * cs dir.b) := by
      show R (-sn dir.a * cs dir.b) = _
      rw [neg_mul, R.odd]
    rw [e0, e1, neg_mul_neg, neg_mul_neg]
    rfl
  have hex : angleBetween (direction (-dir.a) dir.b) (direction 0 phi) = atan2 (Real.sqrt (hx dir.a dir.b phi * hx dir.a dir.b phi +
      hy dir.a dir.b * hy dir.a dir.b)) (hz dir.a dir.b phi) := by
    rw [← (C30_zd dir phi).1]
    unfold Sla.zd hx hy hz
    dsimp only
    congr 2
    ring
  have hnear := vec_near R sn cs hε hs hc dir.a dir.b phi
  have hl2 := (vec_len R sn cs hε hs hc dir.a dir.b phi).2
  have hunit := h_unit dir.a dir.b phi
  have hrsq := h_rsq dir.a dir.b phi
  rw [hzd, hex]
  generalize horizonVector R sn cs dir.a dir.b phi = v at *
  generalize hx dir.a dir.b phi = x at *
  generalize hy dir.a dir.b = y at *
  generalize hz dir.a dir.b phi = z at *
  have hm := (fp_modulus_near R ![v 0, v 1, 0]).1
  have e2 : (Fp.dvn R ![v 0, v 1, 0]).1 = R (Real.sqrt (R (R (v 0 * v 0) + R (v 1 * v 1)))) := by
    show R (Real.sqrt (Fp.acc3 R fun i => R (![v 0, v 1, 0] i * ![v 0, v 1, 0] i))) = _
    unfold Fp.acc3
    simp only [Matrix.cons_val_zero, Matrix.cons_val_one, Matrix.cons_val, zero_add, mul_zero, R.zero, add_zero, R.eq_self (R.rep _)]
  have hr0 : 0 ≤ R (Real.sqrt (R (R (v 0 * v 0) + R (v 1 * v 1)))) := R.nonneg (Real.sqrt_nonneg _)
  rw [e2] at hm
  have l1 : len ![v 0, v 1, 0] = Real.sqrt (v 0 * v 0 + v 1 * v 1) := by rw [len_eq]; simp
  have l2 : len ![x, y, 0] = Real.sqrt (x * x + y * y) := by rw [len_eq]; simp
  have l3 : len ![v 0 - x, v 1 - y, 0] = Real.sqrt ((v 0 - x) * (v 0 - x) + (v 1 - y) * (v 1 - y)) := by rw [len_eq]; simp
  have hrv : len ![v 0, v 1, 0] ≤ 1.01 := by
    rw [l1]
    refine le_trans ?_ hl2
    rw [len_eq]
    exact Real.sqrt_le_sqrt (by linarith [mul_self_nonneg (v 2)])
  have hdiff : |len ![v 0, v 1, 0] - len ![x, y, 0]| ≤ len ![v 0 - x, v 1 - y, 0] := by
    have a1 := len_add_le ![x, y, 0] ![v 0 - x, v 1 - y, 0]
    have a2 := len_sub_le ![v 0, v 1, 0] ![v 0 - x, v 1 - y, 0]
    have b1 : ![x, y, 0] + ![v 0 - x, v 1 - y, 0] = ![v 0, v 1, 0] := by ext i; fin_cases i <;> simp
    have b2 : ![v 0, v 1, 0] - ![v 0 - x, v 1 - y, 0] = ![x, y, 0] := by ext i; fin_cases i <;> simp
    rw [b1] at a1; rw [b2] at a2
    rw [abs_le]; constructor <;> linarith
  rw [l2] at hdiff
  have hD : len ![v 0 - x, v 1 - y, 0] ^ 2 + (v 2 - z) ^ 2 ≤ (7.6 * ε + 6 * (1 / 2 ^ 53)) ^ 2 := by
    refine le_trans (le_of_eq ?_) (pow_le_pow_left₀ (len_nonneg _) hnear 2)
    rw [l3, Real.sq_sqrt (add_nonneg (mul_self_nonneg _) (mul_self_nonneg _)), len_eq,
      Real.sq_sqrt (add_nonneg (add_nonneg (mul_self_nonneg _) (mul_self_nonneg _)) (mul_self_nonneg _))]
    simp only [Pi.sub_apply, cons_val_zero, cons_val_one, cons_val]
    ring
  have hm2 : |R (Real.sqrt (R (R (v 0 * v 0) + R (v 1 * v 1)))) - len ![v 0, v 1, 0]| ≤ 4.1 * (1 / 2 ^ 53) := by
    refine hm.trans ?_
    have : (2 : ℝ) ^ (-490 : ℤ) ≤ 2 ^ (-80 : ℤ) := two_zpow_le (by norm_num)
    have h10 : (2 : ℝ) ^ (-80 : ℤ) ≤ 0.01 * (1 / 2 ^ 53) := by norm_num
    have h11 := this.trans h10
    generalize (2 : ℝ) ^ (-490 : ℤ) = τ at *
    clear hm this hD hdiff hnear
    generalize len ![v 0, v 1, 0] = L at *
    norm_num at *
    linarith
  have hs0 := Real.sqrt_nonneg (x * x + y * y)
  have hsc : Real.sqrt (x * x + y * y) * Real.sqrt (x * x + y * y) + z * z = 1 ^ 2 := by
    rw [Real.mul_self_sqrt hrsq]; linarith
  have hE0 : 0 ≤ 7.6 * ε + 6 * (1 / 2 ^ 53) := by positivity
  have hd : (R (Real.sqrt (R (R (v 0 * v 0) + R (v 1 * v 1)))) - Real.sqrt (x * x + y * y)) ^ 2 + (v 2 - z) ^ 2 ≤
      (7.6 * ε + 6 * (1 / 2 ^ 53) + 4.1 * (1 / 2 ^ 53)) ^ 2 := by
    have hq := len_nonneg ![v 0 - x, v 1 - y, 0]
    generalize len ![v 0 - x, v 1 - y, 0] = q at *
    generalize len ![v 0, v 1, 0] = rv at *
    generalize R (Real.sqrt (R (R (v 0 * v 0) + R (v 1 * v 1)))) = r' at *
    generalize Real.sqrt (x * x + y * y) = r at *
    generalize 7.6 * ε + 6 * (1 / 2 ^ 53) = E at *
    generalize 4.1 * ((1 : ℝ) / 2 ^ 53) = P at *
    have hP0 : 0 ≤ P := (abs_nonneg _).trans hm2
    have hqE : q ≤ E := by
      apply le_of_sq_le_sq _ hE0
      linarith [sq_nonneg (v 2 - z)]
    have t1 : |r' - r| ≤ P + q := by
      have := abs_sub_le r' rv r
      linarith
    have t2 : (r' - r) ^ 2 ≤ (P + q) ^ 2 := by rw [← sq_abs]; exact pow_le_pow_left₀ (abs_nonneg _) t1 2
    nlinarith
  have hu : (1 : ℝ) / 2 ^ 53 ≤ 1e-5 := by norm_num
  have hlast := fp_atan2_near hs0 hr0 one_pos hsc (by positivity) (by norm_num at *; linarith) hd
  rw [mul_one] at hlast
  have h1 := ha (R (Real.sqrt (R (R (v 0 * v 0) + R (v 1 * v 1))))) (v 2)
  have h2 := abs_sub_le (at2 (R (Real.sqrt (R (R (v 0 * v 0) + R (v 1 * v 1))))) (v 2))
    (atan2 (R (Real.sqrt (R (R (v 0 * v 0) + R (v 1 * v 1))))) (v 2)) (atan2 (Real.sqrt (x * x + y * y)) z)
  have hpi2 : Real.pi / 2 ≤ 1.5708 := by have := Real.pi_lt_d6; norm_num at *; linarith
  have h3 : Real.pi / 2 * (7.6 * ε + 6 * (1 / 2 ^ 53) + 4.1 * (1 / 2 ^ 53)) ≤ 1.8e-15 + 12 * ε := by
    refine (mul_le_mul_of_nonneg_right hpi2 (by positivity)).trans ?_
    norm_num
    linarith
  linarith

/-! ### Bearings -/

private theorem bear_core {x0 y0 x y β d ε : ℝ} (hd0 : 0 ≤ d) (h1 : x0 * x0 + y0 * y0 ≤ 1) (hd : (x - x0) ^ 2 + (y - y0) ^ 2 ≤ d ^ 2)
    (ε0 : 0 ≤ ε) (hβ : x ≠ 0 ∨ y ≠ 0 → ∃ k : ℤ, |β - (atan2 y x + 2 * Real.pi * k)| ≤ ε) :
    Real.sqrt ((x0 - Real.sqrt (x0 * x0 + y0 * y0) * Real.cos β) ^ 2 + (y0 - Real.sqrt (x0 * x0 + y0 * y0) * Real.sin β) ^ 2) ≤
      2 * d + ε := by
  have nrm : ∀ a b : ℝ, ‖(⟨a, b⟩ : ℂ)‖ = Real.sqrt (a ^ 2 + b ^ 2) := fun a b => by
    rw [Complex.norm_def, Complex.normSq_apply]; congr 1; simp; ring
  set L := Real.sqrt (x0 * x0 + y0 * y0) with hL
  have L0 : 0 ≤ L := Real.sqrt_nonneg _
  have L1 : L ≤ 1 := Real.sqrt_le_one.2 h1
  have LL : ‖(⟨x0, y0⟩ : ℂ)‖ = L := by rw [nrm, hL]; congr 1; ring
  have ud : ∀ t : ℝ, ‖(⟨Real.cos t, Real.sin t⟩ : ℂ)‖ = 1 := fun t => by rw [nrm, Real.cos_sq_add_sin_sq, Real.sqrt_one]
  have hzz : ‖(⟨x, y⟩ : ℂ) - ⟨x0, y0⟩‖ ≤ d := by
    have : (⟨x, y⟩ : ℂ) - ⟨x0, y0⟩ = ⟨x - x0, y - y0⟩ := by apply Complex.ext <;> simp
    rw [this, nrm]; exact Real.sqrt_le_iff.2 ⟨hd0, hd⟩
  have key : ‖(⟨x0, y0⟩ : ℂ) - (L : ℂ) * ⟨Real.cos β, Real.sin β⟩‖ ≤ 2 * d + ε := by
    by_cases hz : x ≠ 0 ∨ y ≠ 0
    · obtain ⟨k, hk⟩ := hβ hz
      have c1 : (⟨x, y⟩ : ℂ) = (‖(⟨x, y⟩ : ℂ)‖ : ℂ) * ⟨Real.cos (atan2 y x), Real.sin (atan2 y x)⟩ := by
        have := Complex.norm_mul_exp_arg_mul_I (⟨x, y⟩ : ℂ)
        conv_lhs => rw [← this]
        congr 1
        apply Complex.ext
        · rw [Complex.exp_ofReal_mul_I_re]; rfl
        · rw [Complex.exp_ofReal_mul_I_im]; rfl
      have c2 : ‖(⟨Real.cos β, Real.sin β⟩ : ℂ) - ⟨Real.cos (atan2 y x), Real.sin (atan2 y x)⟩‖ ≤ ε := by
        have p1 : Real.cos (atan2 y x) = Real.cos (atan2 y x + 2 * Real.pi * k) := by
          rw [mul_comm (2 * Real.pi) (k : ℝ), Real.cos_add_int_mul_two_pi]
        have p2 : Real.sin (atan2 y x) = Real.sin (atan2 y x + 2 * Real.pi * k) := by
          rw [mul_comm (2 * Real.pi) (k : ℝ), Real.sin_add_int_mul_two_pi]
        rw [p1, p2]
        generalize atan2 y x + 2 * Real.pi * k = θ at *
        have e : (⟨Real.cos β, Real.sin β⟩ : ℂ) - ⟨Real.cos θ, Real.sin θ⟩ = ⟨Real.cos β - Real.cos θ, Real.sin β - Real.sin θ⟩ := by
          apply Complex.ext <;> simp
        rw [e, nrm]
        apply Real.sqrt_le_iff.2
        refine ⟨ε0, ?_⟩
        have q : (Real.cos β - Real.cos θ) ^ 2 + (Real.sin β - Real.sin θ) ^ 2 = 2 * (1 - Real.cos (β - θ)) := by
          rw [Real.cos_sub]
          linear_combination Real.sin_sq_add_cos_sq β + Real.sin_sq_add_cos_sq θ
        rw [q]
        have q2 := Real.one_sub_sq_div_two_le_cos (x := β - θ)
        have q3 : (β - θ) ^ 2 ≤ ε ^ 2 := by rw [← sq_abs]; exact pow_le_pow_left₀ (abs_nonneg _) hk 2
        linarith
      have c3 : |‖(⟨x, y⟩ : ℂ)‖ - L| ≤ d := by
        rw [← LL]; exact (abs_norm_sub_norm_le _ _).trans hzz
      generalize hz0 : (⟨x0, y0⟩ : ℂ) = z0 at *
      generalize ‖(⟨x, y⟩ : ℂ)‖ = r at *
      generalize (⟨x, y⟩ : ℂ) = z at *
      have ut := ud (atan2 y x)
      generalize (⟨Real.cos (atan2 y x), Real.sin (atan2 y x)⟩ : ℂ) = t at *
      generalize (⟨Real.cos β, Real.sin β⟩ : ℂ) = b at *
      have e : z0 - (L : ℂ) * b = (z0 - z) + (((r - L : ℝ) : ℂ) * t) + (L : ℂ) * (t - b) := by
        rw [c1]; push_cast; ring
      rw [e]
      refine (norm_add_le _ _).trans ?_
      have n1 := norm_add_le (z0 - z) (((r - L : ℝ) : ℂ) * t)
      have n2 : ‖((r - L : ℝ) : ℂ) * t‖ ≤ d := by rw [norm_mul, ut, mul_one, Complex.norm_real, Real.norm_eq_abs]; exact c3
      have n3 : ‖(L : ℂ) * (t - b)‖ ≤ ε := by
        rw [norm_mul, Complex.norm_real, Real.norm_of_nonneg L0, norm_sub_rev]
        calc L * ‖b - t‖ ≤ 1 * ε := mul_le_mul L1 c2 (norm_nonneg _) one_pos.le
          _ = ε := one_mul _
      rw [norm_sub_rev] at hzz
      linarith
    · push Not at hz
      obtain ⟨rfl, rfl⟩ := hz
      have : ‖(⟨x0, y0⟩ : ℂ)‖ ≤ d := by
        have e : (⟨0, 0⟩ : ℂ) = 0 := rfl
        rwa [e, zero_sub, norm_neg] at hzz
      refine (norm_sub_le _ _).trans ?_
      rw [norm_mul, ud, mul_one, Complex.norm_real, Real.norm_of_nonneg L0]
      rw [LL] at this ⊢
      linarith
  have e : (⟨x0, y0⟩ : ℂ) - (L : ℂ) * ⟨Real.cos β, Real.sin β⟩ = ⟨x0 - L * Real.cos β, y0 - L * Real.sin β⟩ := by
    apply Complex.ext <;> simp
  rwa [e, nrm] at key

/-- A point seen from another: the exact coordinates of the code, and what an error of them means for the point reached. -/
theorem bear_point (s t : Spherical) {x y β d ε : ℝ} (hd0 : 0 ≤ d)
    (hd : (x - (Real.sin t.b * Real.cos s.b - Real.cos t.b * Real.sin s.b * Real.cos (t.a - s.a))) ^ 2 +
      (y - Real.sin (t.a - s.a) * Real.cos t.b) ^ 2 ≤ d ^ 2) (ε0 : 0 ≤ ε)
    (hβ : x ≠ 0 ∨ y ≠ 0 → ∃ k : ℤ, |β - (atan2 y x + 2 * Real.pi * k)| ≤ ε) :
    let sep := angleBetween (direction s.a s.b) (direction t.a t.b)
    len (direction t.a t.b - (Real.cos sep • direction s.a s.b +
      Real.sin sep • (Real.cos β • north s.a s.b + Real.sin β • east s.a))) ≤ 2 * d + ε := by
  intro sep
  obtain ⟨x0, y0, hx, hy, -, hp⟩ := dbear_coords s t
  have ex : x0 = Real.sin t.b * Real.cos s.b - Real.cos t.b * Real.sin s.b * Real.cos (t.a - s.a) := by
    rw [hx, direction_eq, north_eq, Real.cos_sub]
    simp only [dotProduct, Fin.sum_univ_three, cons_val_zero, cons_val_one, cons_val]
    ring
  have ey : y0 = Real.sin (t.a - s.a) * Real.cos t.b := by
    rw [hy, direction_eq, east_eq, Real.sin_sub]
    simp only [dotProduct, Fin.sum_univ_three, cons_val_zero, cons_val_one, cons_val]
    ring
  rw [← ex, ← ey] at hd
  have hun : ∀ a b, direction a b ⬝ᵥ direction a b = 1 := direction_unit
  have hcos : Real.cos sep = direction s.a s.b ⬝ᵥ direction t.a t.b := by
    simp only [sep]
    unfold angleBetween
    rw [InnerProductGeometry.cos_angle, norm_toLp, norm_toLp, inner_toLp, hun, hun]; simp
  have hxy : x0 * x0 + y0 * y0 = 1 - Real.cos sep ^ 2 := by
    have e := congrArg (fun w => direction t.a t.b ⬝ᵥ w) hp
    simp only [direction_unit, dotProduct_add, dotProduct_smul, ← hx, ← hy, smul_eq_mul] at e
    rw [hcos, dotProduct_comm (direction s.a s.b)] at *
    linear_combination -e
  have hsin : Real.sin sep = Real.sqrt (x0 * x0 + y0 * y0) := by
    have h0 : 0 ≤ Real.sin sep := Real.sin_nonneg_of_nonneg_of_le_pi (InnerProductGeometry.angle_nonneg _ _) (InnerProductGeometry.angle_le_pi _ _)
    rw [hxy, ← Real.sin_sq, Real.sqrt_sq h0]
  have hcore := bear_core hd0 (by rw [hxy]; linarith [sq_nonneg (Real.cos sep)]) hd ε0 hβ
  refine le_trans (le_of_eq ?_) hcore
  rw [hsin]
  have ediff : direction t.a t.b - (Real.cos sep • direction s.a s.b +
      Real.sqrt (x0 * x0 + y0 * y0) • (Real.cos β • north s.a s.b + Real.sin β • east s.a)) =
      (x0 - Real.sqrt (x0 * x0 + y0 * y0) * Real.cos β) • north s.a s.b +
      (y0 - Real.sqrt (x0 * x0 + y0 * y0) * Real.sin β) • east s.a := by
    conv_lhs => rw [hp]
    rw [← hcos, smul_add, smul_smul, smul_smul, sub_smul, sub_smul]
    abel
  rw [ediff]
  generalize x0 - Real.sqrt (x0 * x0 + y0 * y0) * Real.cos β = A
  generalize y0 - Real.sqrt (x0 * x0 + y0 * y0) * Real.sin β = B
  unfold len
  congr 1
  rw [north_eq, east_eq]
  simp only [dotProduct, Fin.sum_univ_three, Pi.add_apply, Pi.smul_apply, smul_eq_mul, cons_val_zero, cons_val_one, cons_val]
  have q1 := Real.sin_sq_add_cos_sq s.a
  have q2 := Real.sin_sq_add_cos_sq s.b
  linear_combination (A ^ 2 * Real.sin s.b ^ 2 + B ^ 2) * q1 + A ^ 2 * q2

/-- C93: going from the first point along the bearing returned by the true separation arrives within 2.2e-15 rad of the second, plus 11.2
    times the error of the library's sines and cosines and that of `atan2`. -/
theorem C93_dbear (R : Rounding binary64) (sn cs : ℝ → ℝ) (at2 : ℝ → ℝ → ℝ) {ε ε' : ℝ} (hε : ε ≤ 1e-3)
    (hs : ∀ a, |sn a - Real.sin a| ≤ ε) (hc : ∀ a, |cs a - Real.cos a| ≤ ε) (ha : Atan2Near at2 ε')
    (s t : Spherical) (hr : |t.a - s.a| ≤ 7) :
    let β := Fp.dbear R sn cs at2 s t
    let sep := angleBetween (direction s.a s.b) (direction t.a t.b)
    len (direction t.a t.b - (Real.cos sep • direction s.a s.b +
      Real.sin sep • (Real.cos β • north s.a s.b + Real.sin β • east s.a))) ≤ 2.2e-15 + 11.2 * ε + ε' ∧ |β| ≤ Real.pi + ε' := by
  intro β
  have ε0 : 0 ≤ ε := (abs_nonneg _).trans (hs 0)
  have ε0' : 0 ≤ ε' := (abs_nonneg _).trans (ha.1 0 0 (Or.inr le_rfl))
  have u0 := u_pos
  have u1 : (1 : ℝ) / 2 ^ 53 ≤ 1e-5 := by norm_num
  have lε : ε ≤ 0.01 := hε.trans (by norm_num)
  have c1 := Real.abs_cos_le_one
  have s1 := Real.abs_sin_le_one
  have cc : ∀ x y : ℝ, |x| ≤ 1 → |y| ≤ 1 → |x * y| ≤ 1 := fun x y hx hy => by
    rw [abs_mul]; calc |x| * |y| ≤ 1 * 1 := mul_le_mul hx hy (abs_nonneg _) one_pos.le
      _ = 1 := by norm_num
  have hΔ : |R (t.a - s.a) - (t.a - s.a)| ≤ 4 * (1 / 2 ^ 53) := by
    rw [abs_sub_comm]
    refine (R.abs_sub_le _ (k := 3) (by norm_num [binary64]) (lt_of_le_of_lt hr (by norm_num))).trans ?_
    norm_num [binary64]
  have hsd : |sn (R (t.a - s.a)) - Real.sin (t.a - s.a)| ≤ ε + 4 * (1 / 2 ^ 53) := by
    have h1 := hs (R (t.a - s.a))
    have h2 := Real.abs_sin_sub_sin_le (R (t.a - s.a)) (t.a - s.a)
    have h3 := abs_sub_le (sn (R (t.a - s.a))) (Real.sin (R (t.a - s.a))) (Real.sin (t.a - s.a))
    linarith
  have hcd : |cs (R (t.a - s.a)) - Real.cos (t.a - s.a)| ≤ ε + 4 * (1 / 2 ^ 53) := by
    have h1 := hc (R (t.a - s.a))
    have h2 := Real.abs_cos_sub_cos_le (R (t.a - s.a)) (t.a - s.a)
    have h3 := abs_sub_le (cs (R (t.a - s.a))) (Real.cos (R (t.a - s.a))) (Real.cos (t.a - s.a))
    linarith
  obtain ⟨hx0, hy0⟩ : |Real.sin t.b * Real.cos s.b - Real.cos t.b * Real.sin s.b * Real.cos (t.a - s.a)| ≤ 1 ∧ True := by
    refine ⟨?_, trivial⟩
    have q1 := Real.sin_sq_add_cos_sq t.b
    have q2 := Real.sin_sq_add_cos_sq s.b
    have q3 := Real.sin_sq_add_cos_sq (t.a - s.a)
    generalize Real.sin t.b = a at *
    generalize Real.cos t.b = b at *
    generalize Real.sin s.b = c at *
    generalize Real.cos s.b = e at *
    generalize Real.sin (t.a - s.a) = f at *
    generalize Real.cos (t.a - s.a) = g at *
    rw [← sq_le_one_iff_abs_le_one]
    have key : 1 - (a * e - b * c * g) ^ 2 = (a * c + b * e * g) ^ 2 + b ^ 2 * f ^ 2 := by
      linear_combination (-a ^ 2 - b ^ 2 * g ^ 2) * q2 - b ^ 2 * q3 - q1
    nlinarith [sq_nonneg (a * c + b * e * g), mul_nonneg (sq_nonneg b) (sq_nonneg f)]
  have m1 := mul_near R (hs t.b) (hc s.b) (s1 _) (c1 _) lε lε
  have m2 := mul_near R (hc t.b) (hs s.b) (c1 _) (s1 _) lε lε
  have m3 := mul_near R m2 hcd (cc _ _ (c1 _) (s1 _)) (c1 _) (by linarith) (by linarith)
  have m4 := sub_near R m1 m3 hx0
  have m5 := mul_near R hsd (hc t.b) (s1 _) (c1 _) (by linarith) lε
  set X := R (R (sn t.b * cs s.b) - R (R (cs t.b * sn s.b) * cs (R (t.a - s.a)))) with hX
  set Y := R (sn (R (t.a - s.a)) * cs t.b) with hY
  have hβ : β = open Classical in if X ≠ 0 ∨ Y ≠ 0 then at2 Y X else 0 := rfl
  obtain ⟨k, hk, hkr⟩ := at2_turn ha Y X
  have hd : (X - (Real.sin t.b * Real.cos s.b - Real.cos t.b * Real.sin s.b * Real.cos (t.a - s.a))) ^ 2 +
      (Y - Real.sin (t.a - s.a) * Real.cos t.b) ^ 2 ≤ (5.6 * ε + 9.7 * (1 / 2 ^ 53)) ^ 2 := by
    have hx2 := pow_le_pow_left₀ (abs_nonneg _) m4 2
    have hy2 := pow_le_pow_left₀ (abs_nonneg _) m5 2
    rw [sq_abs] at hx2 hy2
    refine (add_le_add hx2 hy2).trans ?_
    clear hx2 hy2 m4 m5 m3 m2 m1 hsd hcd hΔ
    generalize (1 : ℝ) / 2 ^ 53 = u at *
    nlinarith [mul_nonneg ε0 u0, mul_self_nonneg ε, mul_self_nonneg u]
  have hp := bear_point s t (by positivity) hd ε0' (β := β) (fun h => by rw [hβ, if_pos h]; exact ⟨k, hk⟩)
  refine ⟨hp.trans ?_, ?_⟩
  · norm_num; linarith
  · rw [hβ]
    split_ifs
    · exact hkr
    · rw [abs_zero]; linarith [Real.pi_pos]

/-- C93: the parallactic angle is the bearing of the zenith from the star: going from the star at that angle by the true distance
    arrives within 1e-15 rad of the zenith, plus 11.2 times the error of the library's sines and cosines and that of `atan2`. -/
theorem C93_pa (R : Rounding binary64) (sn cs : ℝ → ℝ) (at2 : ℝ → ℝ → ℝ) {ε ε' : ℝ} (hε : ε ≤ 1e-3)
    (hs : ∀ a, |sn a - Real.sin a| ≤ ε) (hc : ∀ a, |cs a - Real.cos a| ≤ ε) (ha : Atan2Near at2 ε')
    (dir : Spherical) (phi : ℝ) :
    let q := Fp.pa R sn cs at2 dir phi
    let z := angleBetween (direction (-dir.a) dir.b) (direction 0 phi)
    len (direction 0 phi - (Real.cos z • direction (-dir.a) dir.b +
      Real.sin z • (Real.cos q • north (-dir.a) dir.b + Real.sin q • east (-dir.a)))) ≤ 1e-15 + 11.2 * ε + ε' ∧
      |q| ≤ Real.pi + ε' := by
  intro q
  have ε0 : 0 ≤ ε := (abs_nonneg _).trans (hs 0)
  have ε0' : 0 ≤ ε' := (abs_nonneg _).trans (ha.1 0 0 (Or.inr le_rfl))
  have u0 := u_pos
  have u1 : (1 : ℝ) / 2 ^ 53 ≤ 1e-5 := by norm_num
  have lε : ε ≤ 0.01 := hε.trans (by norm_num)
  have c1 := Real.abs_cos_le_one
  have s1 := Real.abs_sin_le_one
  have cc : ∀ x y : ℝ, |x| ≤ 1 → |y| ≤ 1 → |x * y| ≤ 1 := fun x y hx hy => by
    rw [abs_mul]; calc |x| * |y| ≤ 1 * 1 := mul_le_mul hx hy (abs_nonneg _) one_pos.le
      _ = 1 := by norm_num
  have hx0 : |Real.sin phi * Real.cos dir.b - Real.cos phi * Real.sin dir.b * Real.cos dir.a| ≤ 1 := by
    have q1 := Real.sin_sq_add_cos_sq phi
    have q2 := Real.sin_sq_add_cos_sq dir.b
    have q3 := Real.sin_sq_add_cos_sq dir.a
    generalize Real.sin phi = a at *
    generalize Real.cos phi = b at *
    generalize Real.sin dir.b = c at *
    generalize Real.cos dir.b = e at *
    generalize Real.sin dir.a = f at *
    generalize Real.cos dir.a = g at *
    rw [← sq_le_one_iff_abs_le_one]
    have key : 1 - (a * e - b * c * g) ^ 2 = (a * c + b * e * g) ^ 2 + b ^ 2 * f ^ 2 := by
      linear_combination (-a ^ 2 - b ^ 2 * g ^ 2) * q2 - b ^ 2 * q3 - q1
    nlinarith [sq_nonneg (a * c + b * e * g), mul_nonneg (sq_nonneg b) (sq_nonneg f)]
  have m1 := mul_near R (hs phi) (hc dir.b) (s1 _) (c1 _) lε lε
  have m2 := mul_near R (hc phi) (hs dir.b) (c1 _) (s1 _) lε lε
  have m3 := mul_near R m2 (hc dir.a) (cc _ _ (c1 _) (s1 _)) (c1 _) (by linarith) lε
  have m4 := sub_near R m1 m3 hx0
  have m5 := mul_near R (hc phi) (hs dir.a) (c1 _) (s1 _) lε lε
  set X := R (R (sn phi * cs dir.b) - R (R (cs phi * sn dir.b) * cs dir.a)) with hX
  set Y := R (cs phi * sn dir.a) with hY
  have hq : q = at2 Y (open Classical in if Y = 0 ∧ X = 0 then 1 else X) := rfl
  have hd : (X - (Real.sin phi * Real.cos dir.b - Real.cos phi * Real.sin dir.b * Real.cos (0 - -dir.a))) ^ 2 +
      (Y - Real.sin (0 - -dir.a) * Real.cos phi) ^ 2 ≤ (5.6 * ε + 4.3 * (1 / 2 ^ 53)) ^ 2 := by
    rw [zero_sub, neg_neg, mul_comm (Real.sin dir.a)]
    have hx2 := pow_le_pow_left₀ (abs_nonneg _) m4 2
    have hy2 := pow_le_pow_left₀ (abs_nonneg _) m5 2
    rw [sq_abs] at hx2 hy2
    refine (add_le_add hx2 hy2).trans ?_
    clear hx2 hy2 m4 m5 m3 m2 m1
    generalize (1 : ℝ) / 2 ^ 53 = u at *
    nlinarith [mul_nonneg ε0 u0, mul_self_nonneg ε, mul_self_nonneg u]
  obtain ⟨k, hk, hkr⟩ := at2_turn ha Y (open Classical in if Y = 0 ∧ X = 0 then 1 else X)
  rw [← hq] at hk hkr
  have hp := bear_point ⟨-dir.a, dir.b⟩ ⟨0, phi⟩ (by positivity) hd ε0' (β := q) (fun h => by
    rw [if_neg (by tauto)] at hk; exact ⟨k, hk⟩)
  refine ⟨hp.trans ?_, hkr⟩
  norm_num; linarith

/-- The hypotheses are met: by exact library functions. -/
example : Atan2Near atan2 0 ∧ (∀ a, |Real.sin a - Real.sin a| ≤ (0 : ℝ)) ∧ (0 : ℝ) ≤ 1e-3 := by
  refine ⟨⟨fun y x _ => by simp, fun x hx => Or.inl ?_⟩, fun a => by simp, by norm_num⟩
  have e : atan2 0 x = Real.pi := by
    refine atan2_unique (r := -x) (by linarith) (by linarith [Real.pi_pos]) le_rfl (by simp) (by simp)
  rw [e]; simp

/-- With exact library functions a star at hour angle 1, declination 0.5, seen from latitude 0.9, comes out within 5.7e-15 rad. -/
example (R : Rounding binary64) :
    let h := Fp.de2h R Real.sin Real.cos atan2 ⟨1, 0.5⟩ 0.9
    angleBetween (horizonDirection h.az h.el 0.9) (direction (-1) 0.5) ≤ 5.7e-15 := by
  have ha : Atan2Near atan2 0 := by
    refine ⟨fun y x _ => by simp, fun x hx => Or.inl ?_⟩
    have e : atan2 0 x = Real.pi := by
      refine atan2_unique (r := -x) (by linarith) (by linarith [Real.pi_pos]) le_rfl (by simp) (by simp)
    rw [e]; simp
  have h := (C93_de2h R Real.sin Real.cos atan2 (ε := 0) (ε' := 0) (by norm_num) (by norm_num) (fun a => by simp) (fun a => by simp)
    ha ⟨1, 0.5⟩ 0.9).1
  simpa using h

/-- ... its zenith distance is right to 1.8e-15 rad, ... -/
example (R : Rounding binary64) : |Fp.zd R Real.sin Real.cos atan2 ⟨1, 0.5⟩ 0.9 - angleBetween (direction (-1) 0.5) (direction 0 0.9)| ≤
    1.8e-15 := by
  have h := C93_zd R Real.sin Real.cos atan2 (ε := 0) (ε' := 0) (by norm_num) (fun a => by simp) (fun a => by simp)
    (fun y x => by simp) ⟨1, 0.5⟩ 0.9
  simpa using h

/-- ... and right ascensions of 0.1 and 6.2 are near enough to each other for the bearing. -/
example : |(⟨6.2, 0.3⟩ : Spherical).a - (⟨0.1, -0.2⟩ : Spherical).a| ≤ 7 := by rw [abs_le]; norm_num

end Sla.Props
