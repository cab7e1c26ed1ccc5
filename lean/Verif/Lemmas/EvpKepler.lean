/- The equation of the centre of `evp` and its rate. -/
import Verif.Model.Evp
import Mathlib.Analysis.SpecialFunctions.Trigonometric.Deriv
import Mathlib.Analysis.SpecialFunctions.Trigonometric.Bounds
import Mathlib.Analysis.Complex.Trigonometric

noncomputable section
namespace Sla.EvpL

open Real

theorem abs_mul_le' {x y X Y : ℝ} (hx : |x| ≤ X) (hy : |y| ≤ Y) : |x * y| ≤ X * Y := by
  rw [abs_mul]; exact mul_le_mul hx hy (abs_nonneg _) ((abs_nonneg x).trans hx)

theorem abs_add_le' {x y X Y : ℝ} (hx : |x| ≤ X) (hy : |y| ≤ Y) : |x + y| ≤ X + Y :=
  (abs_add_le x y).trans (add_le_add hx hy)

theorem abs_sub_le' {x y X Y : ℝ} (hx : |x| ≤ X) (hy : |y| ≤ Y) : |x - y| ≤ X + Y :=
  (abs_sub x y).trans (add_le_add hx hy)

/-- Partial derivatives of the equation of the centre. -/
def phiG (e g : ℝ) : ℝ :=
  (e + e) * ((1 - e * e * 0.125) * cos g + e * 0.625 * (2 * cos (g + g)) + e * e * 0.54166667 * (3 * cos (g + (g + g))))

def phiE (e g : ℝ) : ℝ :=
  2 * (1 - 3 * (e * e) * 0.125) * sin g + 4 * e * 0.625 * sin (g + g) + 6 * (e * e) * 0.54166667 * sin (g + (g + g))

theorem phi_deriv {e g : ℝ → ℝ} {e' g' t : ℝ} (he : HasDerivAt e e' t) (hg : HasDerivAt g g' t) :
    HasDerivAt (fun t => evpPhi (e t) (g t)) (phiG (e t) (g t) * g' + phiE (e t) (g t) * e') t := by
  have h2 := he.mul he
  have hgg := hg.add hg
  have hggg := hg.add hgg
  have := (he.add he).mul (((((h2.mul_const 0.125).const_sub 1).mul hg.sin).add
    ((he.mul_const 0.625).mul hgg.sin)).add ((h2.mul_const 0.54166667).mul hggg.sin))
  refine this.congr_deriv ?_
  simp only [Pi.add_apply, Pi.mul_apply, phiG, phiE]
  ring

theorem phi_eq (e g : ℝ) : evpPhi e g =
    2 * e * sin g * (1 + e * (1.25 * cos g + e * (-0.125 + 0.54166667 * (4 * cos g ^ 2 - 1)))) := by
  have h3 : sin (g + (g + g)) = 3 * sin g - 4 * sin g ^ 3 := by
    rw [← sin_three_mul]; congr 1; ring
  have h2 : sin (g + g) = 2 * sin g * cos g := by rw [← sin_two_mul]; congr 1; ring
  have hs : sin g ^ 3 = sin g * (1 - cos g ^ 2) := by rw [← sin_sq]; ring
  rw [evpPhi, h3, h2, hs]
  ring

theorem phiG_eq (e g : ℝ) : phiG e g =
    2 * e * ((1 - e ^ 2 / 8) * cos g + 1.25 * e * (2 * cos g ^ 2 - 1) +
      1.62500001 * e ^ 2 * (4 * cos g ^ 3 - 3 * cos g)) := by
  have h3 : cos (g + (g + g)) = 4 * cos g ^ 3 - 3 * cos g := by rw [← cos_three_mul]; congr 1; ring
  have h2 : cos (g + g) = 2 * cos g ^ 2 - 1 := by rw [← cos_two_mul]; congr 1; ring
  rw [phiG, h3, h2]
  ring

/-- The rate of the true anomaly in units of the mean motion, less one, as used for `phid`. -/
def kep (e f : ℝ) : ℝ := (e + e) * ((1 + e * e * 1.5) * cos f + e * (1.25 - sin f * sin f * 0.5))

theorem kep_eq (e f : ℝ) : kep e f = 2 * e * (1 + 1.5 * e ^ 2) * cos f + 1.5 * e ^ 2 + e ^ 2 * cos f ^ 2 := by
  have : sin f * sin f = 1 - cos f ^ 2 := by rw [← sin_sq]; ring
  rw [kep, this]
  ring

theorem phi_bound {e : ℝ} (he0 : 0 ≤ e) (he : e ≤ 0.017) (g : ℝ) : |evpPhi e g| ≤ 0.0348 := by
  have hee : |e * e| ≤ 0.000289 := by rw [abs_of_nonneg (by positivity)]; nlinarith
  have ha : |e| ≤ 0.017 := by rwa [abs_of_nonneg he0]
  have h1 : |(1 : ℝ) - e * e * 0.125| ≤ 1 := by
    have := mul_self_nonneg e
    rw [abs_le]; constructor <;> nlinarith
  have m1 := abs_mul_le' h1 (abs_sin_le_one g)
  have m2 := abs_mul_le' (abs_mul_le' ha (le_of_eq (abs_of_nonneg (by norm_num : (0 : ℝ) ≤ 0.625)))) (abs_sin_le_one (g + g))
  have m3 := abs_mul_le' (abs_mul_le' hee (le_of_eq (abs_of_nonneg (by norm_num : (0 : ℝ) ≤ 0.54166667))))
    (abs_sin_le_one (g + (g + g)))
  have := abs_mul_le' (abs_add_le' ha ha) (abs_add_le' (abs_add_le' m1 m2) m3)
  rw [evpPhi]
  refine this.trans ?_
  norm_num

theorem phiE_bound {e : ℝ} (he0 : 0 ≤ e) (he : e ≤ 0.017) (g : ℝ) : |phiE e g| ≤ 2.1 := by
  have hee : |e * e| ≤ 0.000289 := by rw [abs_of_nonneg (by positivity)]; nlinarith
  have ha : |e| ≤ 0.017 := by rwa [abs_of_nonneg he0]
  have h1 : |2 * (1 - 3 * (e * e) * 0.125)| ≤ 2 := by
    have := mul_self_nonneg e
    rw [abs_le]; constructor <;> nlinarith
  have m1 := abs_mul_le' h1 (abs_sin_le_one g)
  have h2 : |4 * e * 0.625| ≤ 0.0425 := by
    rw [abs_of_nonneg (by positivity)]; linarith
  have m2 := abs_mul_le' h2 (abs_sin_le_one (g + g))
  have h3 : |6 * (e * e) * 0.54166667| ≤ 0.001 := by
    rw [abs_of_nonneg (by positivity)]; nlinarith
  have m3 := abs_mul_le' h3 (abs_sin_le_one (g + (g + g)))
  rw [phiE]
  refine (abs_add_le' (abs_add_le' m1 m2) m3).trans ?_
  norm_num

theorem kep_ident {e C S u z β m1 m w A1 A2 A3 X M Q Y p4 : ℝ} (hz : z = 1 - C ^ 2) (hSq : S ^ 2 = z)
    (hβ : β = -0.125 + 0.54166667 * (4 * C ^ 2 - 1)) (hm1 : m1 = 1.25 * C + e * β) (hm : m = 1 + e * m1)
    (hum : u = 2 * e * S * m) (hw : w = 3 * m1 + 3 * e * m1 ^ 2 + e ^ 2 * m1 ^ 3) (hA1 : A1 = -2 * z)
    (hA2 : A2 = -4.5 * z * C) (hA3 : A3 = -2 * z * β - 5 * z * C ^ 2 + 4 / 3 * z ^ 2)
    (hX : X = -2 * z * C * (2 * β + m1 ^ 2) + 4 / 3 * z ^ 2 * w)
    (hM : M = C * (1 - u ^ 2 / 2) - S * (u - u ^ 3 / 6)) (hQ : Q = A2 + e * A3 + e ^ 2 * X)
    (hY : Y = 2 * C * (A3 + e * X) + 2 * A1 * Q + e * Q ^ 2)
    (hp4 : p4 = -2 * A3 - 3 * A1 - A1 ^ 2 - 2 * C * A2) :
    M = C + e * A1 + e ^ 2 * A2 + e ^ 3 * A3 + e ^ 4 * X ∧
    2 * e * ((1 - e ^ 2 / 8) * C + 1.25 * e * (2 * C ^ 2 - 1) + 1.62500001 * e ^ 2 * (4 * C ^ 3 - 3 * C)) -
      (2 * e * (1 + 1.5 * e ^ 2) * M + 1.5 * e ^ 2 + e ^ 2 * M ^ 2) =
    e ^ 4 * p4 - e ^ 5 * (2 * X + 3 * A2 + 3 * e * A3 + 3 * e ^ 2 * X + Y) + 2e-8 * (e ^ 3 * (4 * C ^ 3 - 3 * C)) := by
  have hMe : M = C + e * A1 + e ^ 2 * A2 + e ^ 3 * A3 + e ^ 4 * X := by
    have h1 : S * u = 2 * e * z * m := by rw [hum]; linear_combination (2 * e * m) * hSq
    have h2 : u ^ 2 = 4 * e ^ 2 * z * m ^ 2 := by rw [hum]; linear_combination (4 * e ^ 2 * m ^ 2) * hSq
    have : M = C * (1 - u ^ 2 / 2) - (S * u) * (1 - u ^ 2 / 6) := by rw [hM]; ring
    rw [this, h1, h2, hA1, hA2, hA3, hX, hw, hm, hm1]
    ring
  refine ⟨hMe, ?_⟩
  have hM2 : M ^ 2 = C ^ 2 + 2 * e * C * A1 + e ^ 2 * (A1 ^ 2 + 2 * C * A2) + e ^ 3 * Y := by
    rw [hMe, hY, hQ]; ring
  rw [hM2, hMe, hp4]
  clear hM2 hY hQ hMe hM hX hw hum hm hm1 hSq
  subst hA1 hA2 hA3 hβ hz
  ring

theorem kep_p4 {C z β A1 A2 A3 p4 : ℝ} (hC1 : |C| ≤ 1) (hz : z = 1 - C ^ 2)
    (hβ : β = -0.125 + 0.54166667 * (4 * C ^ 2 - 1)) (hA1 : A1 = -2 * z)
    (hA2 : A2 = -4.5 * z * C) (hA3 : A3 = -2 * z * β - 5 * z * C ^ 2 + 4 / 3 * z ^ 2)
    (hp4 : p4 = -2 * A3 - 3 * A1 - A1 ^ 2 - 2 * C * A2) : |p4| ≤ 7.01 := by
  have hC2 : C ^ 2 ≤ 1 := by rw [← sq_abs]; nlinarith [abs_nonneg C]
  have h0 := sq_nonneg C
  have hp : p4 = (-2 * (-2 * (-0.125 - 0.54166667) + 4 / 3) + 6 - 4) +
      C ^ 2 * (-2 * (-2 * (4 * 0.54166667) + 2 * (-0.125 - 0.54166667) - 5 - 8 / 3) - 6 + 8 + 9) +
      (C ^ 2) ^ 2 * (-2 * (2 * (4 * 0.54166667) + 5 + 4 / 3) - 4 - 9) := by
    rw [hp4, hA1, hA2, hA3, hβ, hz]; ring
  generalize C ^ 2 = y at *
  rw [hp, abs_le]
  constructor
  · nlinarith [mul_nonneg h0 (sub_nonneg.2 hC2)]
  · nlinarith [sq_nonneg (y - 0.5486)]

theorem kep_bounds {e C z β m1 w A1 A2 A3 X M Q Y : ℝ} (ha : |e| ≤ 0.017) (hC1 : |C| ≤ 1) (hz : z = 1 - C ^ 2)
    (hβ : β = -0.125 + 0.54166667 * (4 * C ^ 2 - 1)) (hm1 : m1 = 1.25 * C + e * β)
    (hw : w = 3 * m1 + 3 * e * m1 ^ 2 + e ^ 2 * m1 ^ 3) (hA1 : A1 = -2 * z)
    (hA2 : A2 = -4.5 * z * C) (hA3 : A3 = -2 * z * β - 5 * z * C ^ 2 + 4 / 3 * z ^ 2)
    (hX : X = -2 * z * C * (2 * β + m1 ^ 2) + 4 / 3 * z ^ 2 * w)
    (hMe : M = C + e * A1 + e ^ 2 * A2 + e ^ 3 * A3 + e ^ 4 * X) (hQ : Q = A2 + e * A3 + e ^ 2 * X)
    (hY : Y = 2 * C * (A3 + e * X) + 2 * A1 * Q + e * Q ^ 2) :
    |M| ≤ 1.1 ∧ |2 * X + 3 * A2 + 3 * e * A3 + 3 * e ^ 2 * X + Y| ≤ 84 ∧ |4 * C ^ 3 - 3 * C| ≤ 7 ∧
      |e ^ 2| ≤ 0.000289 ∧ |e ^ 3| ≤ 4.92e-6 ∧ |e ^ 4| ≤ 8.36e-8 ∧ |e ^ 5| ≤ 1.43e-9 := by
  have hC2 : C ^ 2 ≤ 1 := by rw [← sq_abs]; nlinarith [abs_nonneg C]
  have hz1 : |z| ≤ 1 := by rw [hz, abs_le]; constructor <;> linarith [sq_nonneg C]
  have hβ1 : |β| ≤ 1.51 := by rw [hβ, abs_le]; constructor <;> linarith [sq_nonneg C]
  have k2 : |(2 : ℝ)| ≤ 2 := by norm_num
  have k2' : |(-2 : ℝ)| ≤ 2 := by norm_num
  have k3 : |(3 : ℝ)| ≤ 3 := by norm_num
  have k4 : |(4 : ℝ)| ≤ 4 := by norm_num
  have k5 : |(5 : ℝ)| ≤ 5 := by norm_num
  have k43 : |(4 / 3 : ℝ)| ≤ 4 / 3 := by rw [abs_of_nonneg]; norm_num
  have k45 : |(-4.5 : ℝ)| ≤ 4.5 := by rw [abs_of_nonpos] <;> norm_num
  have k125 : |(1.25 : ℝ)| ≤ 1.25 := by rw [abs_of_nonneg]; norm_num
  have he2 : |e ^ 2| ≤ 0.000289 := by
    rw [abs_pow]; exact (pow_le_pow_left₀ (abs_nonneg _) ha 2).trans (by norm_num)
  have he3 : |e ^ 3| ≤ 4.92e-6 := by
    rw [abs_pow]; exact (pow_le_pow_left₀ (abs_nonneg _) ha 3).trans (by norm_num)
  have he4 : |e ^ 4| ≤ 8.36e-8 := by
    rw [abs_pow]; exact (pow_le_pow_left₀ (abs_nonneg _) ha 4).trans (by norm_num)
  have he5 : |e ^ 5| ≤ 1.43e-9 := by
    rw [abs_pow]; exact (pow_le_pow_left₀ (abs_nonneg _) ha 5).trans (by norm_num)
  have hm1b : |m1| ≤ 1.3 := by
    rw [hm1]; exact (abs_add_le' (abs_mul_le' k125 hC1) (abs_mul_le' ha hβ1)).trans (by norm_num)
  have hC2a : |C ^ 2| ≤ 1 := by rw [abs_of_nonneg (sq_nonneg C)]; exact hC2
  have hC3a : |C ^ 3| ≤ 1 := by rw [abs_pow]; exact pow_le_one₀ (abs_nonneg _) hC1
  have hz2a : |z ^ 2| ≤ 1 := by rw [abs_pow]; exact pow_le_one₀ (abs_nonneg _) hz1
  have hb1 : |A1| ≤ 2 := by rw [hA1]; exact (abs_mul_le' k2' hz1).trans (by norm_num)
  have hb2 : |A2| ≤ 4.5 := by
    rw [hA2]; exact (abs_mul_le' (abs_mul_le' k45 hz1) hC1).trans (by norm_num)
  have hb3 : |A3| ≤ 9.4 := by
    rw [hA3]
    exact (abs_add_le' (abs_sub_le' (abs_mul_le' (abs_mul_le' k2' hz1) hβ1)
      (abs_mul_le' (abs_mul_le' k5 hz1) hC2a)) (abs_mul_le' k43 hz2a)).trans (by norm_num)
  have hm1s : |m1 ^ 2| ≤ 1.69 := by
    rw [abs_pow]; exact (pow_le_pow_left₀ (abs_nonneg _) hm1b 2).trans (by norm_num)
  have hm1c : |m1 ^ 3| ≤ 2.2 := by
    rw [abs_pow]; exact (pow_le_pow_left₀ (abs_nonneg _) hm1b 3).trans (by norm_num)
  have hwb : |w| ≤ 4 := by
    rw [hw]
    exact (abs_add_le' (abs_add_le' (abs_mul_le' k3 hm1b) (abs_mul_le' (abs_mul_le' k3 ha) hm1s))
      (abs_mul_le' he2 hm1c)).trans (by norm_num)
  have hXb : |X| ≤ 15 := by
    rw [hX]
    exact (abs_add_le' (abs_mul_le' (abs_mul_le' (abs_mul_le' k2' hz1) hC1)
      (abs_add_le' (abs_mul_le' k2 hβ1) hm1s)) (abs_mul_le' (abs_mul_le' k43 hz2a) hwb)).trans (by norm_num)
  have hQb : |Q| ≤ 4.7 := by
    rw [hQ]
    exact (abs_add_le' (abs_add_le' hb2 (abs_mul_le' ha hb3)) (abs_mul_le' he2 hXb)).trans (by norm_num)
  have hQ2 : |Q ^ 2| ≤ 22.1 := by
    rw [abs_pow]; exact (pow_le_pow_left₀ (abs_nonneg _) hQb 2).trans (by norm_num)
  have hYb : |Y| ≤ 39 := by
    rw [hY]
    exact (abs_add_le' (abs_add_le' (abs_mul_le' (abs_mul_le' k2 hC1) (abs_add_le' hb3 (abs_mul_le' ha hXb)))
      (abs_mul_le' (abs_mul_le' k2 hb1) hQb)) (abs_mul_le' ha hQ2)).trans (by norm_num)
  refine ⟨?_, ?_, ?_, he2, he3, he4, he5⟩
  · rw [hMe]
    exact (abs_add_le' (abs_add_le' (abs_add_le' (abs_add_le' hC1 (abs_mul_le' ha hb1)) (abs_mul_le' he2 hb2))
      (abs_mul_le' he3 hb3)) (abs_mul_le' he4 hXb)).trans (by norm_num)
  · exact (abs_add_le' (abs_add_le' (abs_add_le' (abs_add_le' (abs_mul_le' k2 hXb)
      (abs_mul_le' k3 hb2)) (abs_mul_le' (abs_mul_le' k3 ha) hb3))
      (abs_mul_le' (abs_mul_le' k3 he2) hXb)) hYb).trans (by norm_num)
  · exact (abs_sub_le' (abs_mul_le' k4 hC3a) (abs_mul_le' k3 hC1)).trans (by norm_num)

/-- The series for the rate agrees with the derivative of the series for the equation of the centre. -/
theorem kepler {e : ℝ} (he0 : 0 ≤ e) (he : e ≤ 0.017) (g : ℝ) : |phiG e g - kep e (g + evpPhi e g)| ≤ 9e-7 := by
  have hub : |evpPhi e g| ≤ 0.0348 := phi_bound he0 he g
  have hum := phi_eq e g
  have hC1 := abs_cos_le_one g
  have hS1 := abs_sin_le_one g
  have hSq := sin_sq g
  have ha : |e| ≤ 0.017 := by rwa [abs_of_nonneg he0]
  rw [phiG_eq, kep_eq]
  generalize evpPhi e g = u at *
  have hca := cos_add g u
  generalize cos (g + u) = cf at *
  generalize cos g = C at *
  generalize sin g = S at *
  have hu1 : |u| ≤ 1 := hub.trans (by norm_num)
  have hcb := Real.cos_bound hu1
  have hsb := Real.sin_bound hu1
  have hu4 : |u| ^ 4 * (5 / 96) ≤ 7.7e-8 := by
    have := pow_le_pow_left₀ (abs_nonneg u) hub 4
    have h2 : (0.0348 : ℝ) ^ 4 * (5 / 96) ≤ 7.7e-8 := by norm_num
    linarith
  have hu5 : |u| ^ 5 / 100 ≤ 7.7e-8 := by
    have := pow_le_pow_left₀ (abs_nonneg u) hub 5
    have h2 : (0.0348 : ℝ) ^ 5 / 100 ≤ 7.7e-8 := by norm_num
    linarith
  obtain ⟨M, hM⟩ : ∃ M, M = C * (1 - u ^ 2 / 2) - S * (u - u ^ 3 / 6) := ⟨_, rfl⟩
  obtain ⟨R, hR⟩ : ∃ R, R = cf - M := ⟨_, rfl⟩
  have hRb : |R| ≤ 1.6e-7 := by
    have : R = C * (cos u - (1 - u ^ 2 / 2)) - S * (sin u - (u - u ^ 3 / 6)) := by
      rw [hR, hM, hca]; ring
    rw [this]
    exact (abs_sub_le' (abs_mul_le' hC1 (hcb.trans hu4)) (abs_mul_le' hS1 (hsb.trans hu5))).trans (by norm_num)
  obtain ⟨hMe, hid⟩ := kep_ident (e := e) (C := C) (S := S) (u := u) rfl hSq rfl rfl rfl hum rfl rfl rfl rfl rfl hM rfl rfl rfl
  obtain ⟨hMb, hrest, hc3, he2, he3, he4, he5⟩ := kep_bounds (e := e) (C := C) ha hC1 rfl rfl rfl rfl rfl rfl rfl rfl hMe rfl rfl
  have hp4b := kep_p4 hC1 rfl rfl rfl rfl rfl rfl
  have hcf : cf = M + R := by rw [hR]; ring
  have t1 := abs_mul_le' he4 hp4b
  have t2 := abs_mul_le' he5 hrest
  have k2 : |(2 : ℝ)| ≤ 2 := by norm_num
  have t3 := abs_mul_le' (x := (2e-8 : ℝ)) (X := 2e-8) (by rw [abs_of_nonneg]; norm_num) (abs_mul_le' he3 hc3)
  have h15 : |1 + 1.5 * e ^ 2| ≤ 1.001 := by
    rw [abs_of_nonneg (by positivity)]; have := (abs_le.mp he2).2; linarith
  have t4 := abs_mul_le' hRb (abs_add_le' (abs_mul_le' (abs_mul_le' k2 ha) h15)
    (abs_mul_le' he2 (abs_add_le' (abs_mul_le' k2 hMb) hRb)))
  have t5 := abs_sub_le' (abs_add_le' (abs_sub_le' t1 t2) t3) t4
  rw [← hid] at t5
  refine le_trans (le_of_eq ?_) (t5.trans (by norm_num))
  congr 1
  rw [hcf]; ring

end Sla.EvpL
