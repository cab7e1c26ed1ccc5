/- C86: the model atmosphere and the refraction integral of `refro`. -/
import Verif.Model.Refraction
import Verif.Lemmas.Arg
import Verif.Props.Refraction
import Verif.Props.Angles
import Mathlib.Analysis.SpecialFunctions.Pow.Deriv
import Mathlib.Analysis.SpecialFunctions.ExpDeriv
import Mathlib.Analysis.SpecialFunctions.Trigonometric.Deriv

noncomputable section
namespace Sla.Props

open Real

/-! ## The atmosphere -/

/-- Gravity at latitude `phi` and height `h` (m/s²). -/
def gravityAt (phi h : ℝ) : ℝ := 9.784 * (1 - 0.0026 * cos (2 * phi) - 2.8e-7 * h)

/-- Saturation pressure of water vapour at temperature `t` (K) and pressure `p` (mbar), Gill (1982). -/
def satPressure (t p : ℝ) : ℝ :=
  (10 : ℝ) ^ ((0.7859 + 0.03477 * (t - 273.15)) / (1 + 0.00412 * (t - 273.15))) *
    (1 + p * (4.5e-6 + 6e-10 * (t - 273.15) ^ 2))

/-- Partial pressure of water vapour for relative humidity `rh`, Crane (1976). -/
def vapourPressure (t p rh : ℝ) : ℝ := rh * satPressure t p / (1 - (1 - rh) * satPressure t p / p)

/-- Refractive index minus one of air at temperature `t` with total pressure `p` and vapour pressure `pw`: optical up to
    100 micrometres, else radio. -/
def refractivity (wl t p pw : ℝ) : ℝ :=
  if wl ≤ 100 then
    ((287.6155 + 1.62887 / wl ^ 2 + 0.0136 / wl ^ 4) * 1e-6 * (273.15 / 1013.25) * p - 11.2684e-6 * pw) / t
  else (77.6890e-6 * p - 6.3938e-6 * pw) / t + 0.375463 * pw / t ^ 2

/-- Arguments of `refro` within their limits. -/
structure AirArgs (oh atk apm arh wl tlr : ℝ) : Prop where
  oh : -1000 ≤ oh ∧ oh ≤ 80000
  atk : 100 ≤ atk ∧ atk ≤ 500
  apm : 0 < apm ∧ apm ≤ 10000
  arh : 0 ≤ arh ∧ arh ≤ 1
  wl : 0.1 ≤ wl
  tlr : 0.001 ≤ tlr ∧ tlr ≤ 0.01

private theorem pow_deriv {t0 al r0 r k : ℝ} (h0 : 0 < t0) (h : 0 < t0 - al * (r - r0)) :
    HasDerivAt (fun r => ((t0 - al * (r - r0)) / t0) ^ k)
      (-(al / t0) * k * ((t0 - al * (r - r0)) / t0) ^ (k - 1)) r := by
  have h1 : HasDerivAt (fun r => (t0 - al * (r - r0)) / t0) (-(al / t0)) r := by
    have := ((((hasDerivAt_id r).sub_const r0).const_mul al).const_sub t0).div_const t0
    refine this.congr_deriv ?_
    simp; ring
  exact h1.rpow_const (Or.inl (div_pos h h0).ne')

/-- The troposphere of `refro`. Temperature falls linearly with the given lapse rate; the partial pressure of water vapour
    goes as the 18.36th power of temperature from its value at the observer; the total pressure starts from the given
    pressure and is in hydrostatic equilibrium for a mixture of dry air and water vapour in a uniform gravity. As long as
    the temperature is in [100,320] K the refractive index is that of this air, and inside that range the second result
    is r times its derivative. -/
theorem C86_troposphere (oh atk apm arh wl phi tlr : ℝ) (h : AirArgs oh atk apm arh wl tlr)
    (hs : gravityAt phi oh * 28.9644 / 8314.32 ≠ 18.36 * tlr) :
    let a := (refroTropo oh atk apm arh wl phi tlr).1
    let r0 := 6378120 + oh
    let T := fun r => atk - tlr * (r - r0)
    ∃ p pw : ℝ → ℝ, p r0 = apm ∧ pw r0 = vapourPressure atk apm arh ∧ a.r0 = r0 ∧ ∀ r, 0 < T r →
      pw r = pw r0 * (T r / atk) ^ (18.36 : ℝ) ∧
      HasDerivAt p (-(gravityAt phi oh / (8314.32 * T r)) * (28.9644 * (p r - pw r) + 18.0152 * pw r)) r ∧
      (100 ≤ T r → T r ≤ 320 → (atmt a r).1 = 1 + refractivity wl (T r) (p r) (pw r)) ∧
      (100 < T r → T r < 320 → ∃ n', HasDerivAt (fun r => (atmt a r).1) n' r ∧ (atmt a r).2 = r * n') := by
  obtain ⟨⟨ho1, ho2⟩, ⟨ht1, ht2⟩, ⟨hp1, hp2⟩, ⟨hr1, hr2⟩, hw, ⟨hl1, hl2⟩⟩ := h
  have hl0 : 0 < tlr := by norm_num at hl1; linarith
  have ht0 : 0 < atk := by linarith
  have hw0 : 0 < wl := by norm_num at hw; linarith
  intro a r0 T
  set g := gravityAt phi oh with hg
  set G := g * 28.9644 / 8314.32 / tlr with hG
  set pw0 := vapourPressure atk apm arh with hpw0
  set w := pw0 * (1 - 18.0152 / 28.9644) * G / (18.36 - G) with hwd
  have hden : 18.36 - G ≠ 0 := by
    intro hc
    apply hs
    have : G = 18.36 := by linarith
    rw [hG, div_eq_iff hl0.ne'] at this
    exact this
  have hww : w * (18.36 - G) = pw0 * (1 - 18.0152 / 28.9644) * G := div_mul_cancel₀ _ hden
  -- the parameters
  set A : ℝ := if wl ≤ 100 then (287.6155 + (1.62887 + 0.01360 / (wl * wl)) / (wl * wl)) * 273.15e-6 / 1013.25
    else 77.6890e-6 with hA
  set B : ℝ := if wl ≤ 100 then 11.2684e-6 else 6.3938e-6 with hB
  set C : ℝ := if wl ≤ 100 then 0 else 375463.0e-6 * pw0 / atk with hC
  have ea : a = ⟨r0, atk, tlr, G - 2, 18.36 - 2, A * (apm + w) / atk, (A * w + B * pw0) / atk,
      (G - 1) * tlr * (A * (apm + w) / atk) / atk, (18.36 - 1) * tlr * ((A * w + B * pw0) / atk) / atk, C,
      C * (18.36 - 2) * tlr / (atk * atk)⟩ := by
    have e1 : min (max oh (-1e3)) 80000 = oh := by
      rw [max_eq_left (le_trans (by norm_num) ho1), min_eq_left ho2]
    have e2 : min (max atk 100) 500 = atk := by rw [max_eq_left ht1, min_eq_left ht2]
    have e3 : min (max apm 0) 10000 = apm := by rw [max_eq_left hp1.le, min_eq_left hp2]
    have e4 : min (max arh 0) 1 = arh := by rw [max_eq_left hr1, min_eq_left hr2]
    have e5 : max wl 0.1 = wl := max_eq_left hw
    have e6 : min (max |tlr| 0.001) 0.01 = tlr := by rw [abs_of_pos hl0, max_eq_left hl1, min_eq_left hl2]
    have eg : 9.784 * (1 - 0.0026 * cos (phi + phi) - 0.00000028 * oh) = g := by
      rw [hg, gravityAt, two_mul]
    have ep : arh * ((10 : ℝ) ^ ((0.7859 + 0.03477 * (atk - 273.15)) / (1 + 0.00412 * (atk - 273.15))) *
        (1 + apm * (4.5e-6 + 6.0e-10 * (atk - 273.15) * (atk - 273.15)))) / (1 - (1 - arh) *
        ((10 : ℝ) ^ ((0.7859 + 0.03477 * (atk - 273.15)) / (1 + 0.00412 * (atk - 273.15))) *
        (1 + apm * (4.5e-6 + 6.0e-10 * (atk - 273.15) * (atk - 273.15)))) / apm) = pw0 := by
      rw [hpw0, vapourPressure, satPressure]
      congr 3 <;> ring_nf
    simp only [a, refroTropo, e1, e2, e3, e4, e5, e6, if_pos hp1, ep, eg]
    rw [← hG, ← hwd]
    simp only [hA, hB, hC, r0]
    split <;> simp
  have era : a.r0 = r0 := by rw [ea]
  have e0 : (T r0) = atk := by simp [T]
  refine ⟨fun r => (apm + w) * (T r / atk) ^ G - w * (T r / atk) ^ (18.36 : ℝ),
    fun r => pw0 * (T r / atk) ^ (18.36 : ℝ), ?_, ?_, era, fun r hT => ⟨?_, ?_, ?_, ?_⟩⟩
  · simp only [e0, div_self ht0.ne', one_rpow]; ring
  · simp only [e0, div_self ht0.ne', one_rpow]; ring
  · simp only [e0, div_self ht0.ne', one_rpow, mul_one]
  · have hq : 0 < T r / atk := div_pos hT ht0
    have d1 := (pow_deriv (k := G) ht0 hT).const_mul (apm + w)
    have d2 := (pow_deriv (k := 18.36) ht0 hT).const_mul w
    refine (d1.sub d2).congr_deriv ?_
    change (apm + w) * (-(tlr / atk) * G * (T r / atk) ^ (G - 1)) -
      w * (-(tlr / atk) * 18.36 * (T r / atk) ^ ((18.36 : ℝ) - 1)) = _
    rw [rpow_sub_one hq.ne', rpow_sub_one hq.ne']
    set X := (T r / atk) ^ G
    set Y := (T r / atk) ^ (18.36 : ℝ)
    have hgl : g = G * tlr * 8314.32 / 28.9644 := by rw [hG]; field_simp
    have hTn := hT.ne'
    rw [hgl]
    have key : w * 18.36 = G * (w + pw0 * (1 - 18.0152 / 28.9644)) := by linear_combination hww
    have l1 : (apm + w) * (-(tlr / atk) * G * (X / (T r / atk))) -
        w * (-(tlr / atk) * 18.36 * (Y / (T r / atk))) =
        -(tlr / T r) * ((apm + w) * G * X - (w * 18.36) * Y) := by
      field_simp
      ring
    rw [l1, key]
    field_simp
    ring
  · intro h1 h2
    have hq : 0 < T r / atk := div_pos hT ht0
    have et : atmtT a r = T r := by
      rw [ea]
      simp only [atmtT]
      rw [min_eq_left h2, max_eq_left h1]
    simp only [atmt, et]
    rw [ea]
    simp only
    rw [rpow_sub hq, rpow_sub hq]
    set X := (T r / atk) ^ G
    set Y := (T r / atk) ^ (18.36 : ℝ)
    rw [show (T r / atk) ^ (2 : ℝ) = (T r / atk) ^ 2 from rpow_natCast _ 2]
    have hTn := hT.ne'
    have hta := ht0.ne'
    have hwn := hw0.ne'
    simp only [refractivity, hA, hB, hC]
    by_cases ho : wl ≤ 100
    · simp only [if_pos ho]
      field_simp
      ring
    · simp only [if_neg ho]
      field_simp
      ring
  · intro h1 h2
    have hq : 0 < T r / atk := div_pos hT ht0
    have et : ∀ᶠ x in nhds r, atmtT a x = T x := by
      have c : ContinuousAt T r := by
        simp only [T]
        fun_prop
      filter_upwards [c.eventually (lt_mem_nhds h1), c.eventually (gt_mem_nhds h2)] with x hx1 hx2
      rw [ea]
      simp only [atmtT]
      rw [min_eq_left hx2.le, max_eq_left hx1.le]
    have pos : ∀ᶠ x in nhds r, 0 < T x := by
      have c : ContinuousAt T r := by
        simp only [T]
        fun_prop
      exact c.eventually (lt_mem_nhds hT)
    have ev : (fun x => (atmt a x).1) =ᶠ[nhds r] fun x => 1 + a.c1 * (T x / atk) ^ (G - 1) -
        a.c2 * (T x / atk) ^ ((18.36 : ℝ) - 1) + a.c5 / atk * (T x / atk) ^ ((18.36 : ℝ) - 2) := by
      filter_upwards [et, pos] with x hx hx0
      have hqx : 0 < T x / atk := div_pos hx0 ht0
      simp only [atmt, hx]
      rw [ea]
      simp only
      rw [rpow_sub hqx, rpow_sub hqx, rpow_sub hqx, rpow_sub hqx, rpow_one,
        show (T x / atk) ^ (2 : ℝ) = (T x / atk) ^ 2 from rpow_natCast _ 2]
      have hTn := hx0.ne'
      have hta := ht0.ne'
      generalize (T x / atk) ^ G = X
      generalize (T x / atk) ^ (18.36 : ℝ) = Y
      generalize A * (apm + w) = c1
      generalize A * w + B * pw0 = c2
      field_simp
      ring
    have d1 := (pow_deriv (k := G - 1) ht0 hT).const_mul a.c1
    have d2 := (pow_deriv (k := 18.36 - 1) ht0 hT).const_mul a.c2
    have d3 := (pow_deriv (k := 18.36 - 2) ht0 hT).const_mul (a.c5 / atk)
    refine ⟨_, (((d1.const_add 1).sub d2).add d3).congr_of_eventuallyEq ev, ?_⟩
    simp only [atmt, et.self_of_nhds]
    change _ = r * (a.c1 * (-(tlr / atk) * (G - 1) * (T r / atk) ^ (G - 1 - 1)) -
      a.c2 * (-(tlr / atk) * (18.36 - 1) * (T r / atk) ^ ((18.36 : ℝ) - 1 - 1)) +
      a.c5 / atk * (-(tlr / atk) * (18.36 - 2) * (T r / atk) ^ ((18.36 : ℝ) - 2 - 1)))
    rw [rpow_sub_one hq.ne' (18.36 - 2), show G - 1 - 1 = G - 2 by ring, show (18.36 : ℝ) - 1 - 1 = 18.36 - 2 by ring]
    rw [ea]
    simp only
    have hTn := hT.ne'
    have hta := ht0.ne'
    generalize (T r / atk) ^ (G - 2) = X
    generalize (T r / atk) ^ ((18.36 : ℝ) - 2) = Y
    generalize A * (apm + w) = c1
    generalize A * w + B * pw0 = c2
    field_simp
    ring

example : AirArgs 4200 275 620 0.3 0.55 0.0065 := by constructor <;> norm_num

example : gravityAt (π / 4) 4200 * 28.9644 / 8314.32 ≠ 18.36 * 0.0065 := by
  rw [gravityAt, show 2 * (π / 4) = π / 2 by ring, cos_pi_div_two]
  norm_num

/-- Above 320 K at the observer, though temperatures up to 500 K are accepted, the two results of the troposphere do not
    belong together: near the observer the refractive index is constant, and the second result is not zero. -/
theorem C86_hot_air : ∃ oh atk apm arh wl phi tlr : ℝ, AirArgs oh atk apm arh wl tlr ∧
    let a := (refroTropo oh atk apm arh wl phi tlr).1
    HasDerivAt (fun r => (atmt a r).1) 0 a.r0 ∧ (atmt a a.r0).2 < -0.1 := by
  refine ⟨0, 330, 1000, 0, 200, π / 4, 0.0065, by constructor <;> norm_num, ?_⟩
  have hc : cos (π / 4 + π / 4) = 0 := by rw [show π / 4 + π / 4 = π / 2 by ring]; exact cos_pi_div_two
  intro a
  obtain ⟨G, hG⟩ : ∃ G : ℝ, G = 9.784 * 28.9644 / 8314.32 / 0.0065 := ⟨_, rfl⟩
  have hG1 : 4 ≤ G - 1 := by rw [hG]; norm_num
  have hG2 : G - 2 ≤ 4 := by rw [hG]; norm_num
  have ea : a = ⟨6378120, 330, 0.0065, G - 2, 18.36 - 2, 77.6890e-6 * 1000 / 330, 0,
      (G - 1) * 0.0065 * (77.6890e-6 * 1000 / 330) / 330, 0, 0, 0⟩ := by
    simp only [a, refroTropo, hc]
    have e1 : min (max (0 : ℝ) (-1e3)) 80000 = 0 := by norm_num
    have e2 : min (max (330 : ℝ) 100) 500 = 330 := by norm_num
    have e3 : min (max (1000 : ℝ) 0) 10000 = 1000 := by norm_num
    have e4 : min (max (0 : ℝ) 0) 1 = 0 := by norm_num
    have e5 : max (200 : ℝ) 0.1 = 200 := by norm_num
    have e6 : min (max |(0.0065 : ℝ)| 0.001) 0.01 = 0.0065 := by
      rw [abs_of_pos (by norm_num), max_eq_left (by norm_num), min_eq_left (by norm_num)]
    simp only [e1, e2, e3, e4, e5, e6, zero_mul, mul_zero, zero_div, ite_self, sub_zero, add_zero, mul_one]
    rw [if_neg (by norm_num), hG]
  clear hG
  have er : a.r0 = 6378120 := by rw [ea]
  have et : ∀ᶠ x in nhds a.r0, atmtT a x = 320 := by
    have c : ContinuousAt (fun x => a.t0 - a.alpha * (x - a.r0)) a.r0 := by fun_prop
    have h1 : 320 < a.t0 - a.alpha * (a.r0 - a.r0) := by rw [ea]; norm_num
    filter_upwards [c.eventually (lt_mem_nhds h1)] with x hx
    simp only [atmtT]
    rw [min_eq_right hx.le, max_eq_left (by norm_num)]
  constructor
  · refine (hasDerivAt_const a.r0 (atmt a a.r0).1).congr_of_eventuallyEq ?_
    filter_upwards [et] with x hx
    simp only [atmt, hx, et.self_of_nhds]
  · simp only [atmt, et.self_of_nhds]
    rw [ea]
    simp only [neg_mul, zero_div, sub_zero, zero_mul, add_zero]
    have h4 : (320 / 330 : ℝ) ^ (4 : ℝ) ≤ (320 / 330 : ℝ) ^ (G - 2) :=
      rpow_le_rpow_of_exponent_ge (by norm_num) (by norm_num) hG2
    have hX : (320 / 330 : ℝ) ^ (4 : ℝ) = (320 / 330 : ℝ) ^ 4 := rpow_natCast _ 4
    rw [hX] at h4
    clear hX
    generalize (320 / 330 : ℝ) ^ (G - 2) = X at h4 ⊢
    have h5 : (0.88 : ℝ) ≤ X := le_trans (by norm_num) h4
    have h7 : 4 * 0.88 ≤ (G - 1) * X := mul_le_mul hG1 h5 (by norm_num) (by linarith)
    clear h4 h5 hG1 hG2
    have e : (6378120 : ℝ) * -((G - 1) * 0.0065 * (77.6890e-6 * 1000 / 330) / 330 * X) =
      -(6378120 * 0.0065 * (77.6890e-6 * 1000 / 330) / 330) * ((G - 1) * X) := by ring
    rw [e]
    norm_num at h7 ⊢
    linarith

/-- The stratosphere of `refro`: it continues the refractive index of the tropopause, which falls off as the density of
    an isothermal atmosphere in equilibrium, and the second result is r times the derivative. -/
theorem C86_stratosphere (oh atk apm arh wl phi tlr : ℝ) (ho : -1000 ≤ oh ∧ oh ≤ 80000) (rt tt nt : ℝ) :
    let n := atms rt tt nt (refroTropo oh atk apm arh wl phi tlr).2
    (n rt).1 = nt ∧
    (∀ r, HasDerivAt (fun r => (n r).1 - 1) (-(gravityAt phi oh * 28.9644 / (8314.32 * tt)) * ((n r).1 - 1)) r) ∧
    ∀ r, ∃ n', HasDerivAt (fun r => (n r).1) n' r ∧ (n r).2 = r * n' := by
  intro n
  set b := (refroTropo oh atk apm arh wl phi tlr).2 / tt with hb
  have eb : b = gravityAt phi oh * 28.9644 / (8314.32 * tt) := by
    have e1 : min (max oh (-1e3)) 80000 = oh := by
      rw [max_eq_left (le_trans (by norm_num) ho.1), min_eq_left ho.2]
    simp only [hb, refroTropo, e1]
    rw [gravityAt, two_mul, div_div]
  have d : ∀ r, HasDerivAt (fun r => (nt - 1) * exp (-b * (r - rt))) (-b * ((nt - 1) * exp (-b * (r - rt)))) r := by
    intro r
    have := (((((hasDerivAt_id r).sub_const rt).const_mul (-b)).exp).const_mul (nt - 1))
    refine this.congr_deriv ?_
    simp only [id]
    ring
  have en : ∀ r, n r = (1 + (nt - 1) * exp (-b * (r - rt)), -r * b * ((nt - 1) * exp (-b * (r - rt)))) := fun r => rfl
  refine ⟨?_, fun r => ?_, fun r => ?_⟩
  · rw [en]; simp
  · rw [← eb]
    simp only [en, add_sub_cancel_left]
    exact d r
  · refine ⟨_, by simpa only [en] using (d r).const_add 1, ?_⟩
    rw [en]; ring

/-! ## The integral -/

/-- The integrand is the rate at which a light ray turns. Along a ray in air whose refractive index n depends only on the
    distance r from the centre of the Earth, let z be the local zenith distance and s the angle at the centre of the
    Earth. If r n sin z is constant along the ray (the law of refraction), and the ray runs in the direction of z
    (r ds = tan z dr), then the direction of the ray, z + s, turns at the rate of the integrand per unit of z. -/
theorem C86_bending (n : ℝ → ℝ) (r s : ℝ → ℝ) (n' r' s' z k : ℝ) (hn : HasDerivAt n n' (r z)) (hr : HasDerivAt r r' z)
    (hs : HasDerivAt s s' z) (hk : ∀ᶠ x in nhds z, r x * n (r x) * sin x = k) (hz : sin z ≠ 0) (hc : cos z ≠ 0)
    (hr0 : r z ≠ 0) (hdir : r z * s' = tan z * r') (hreg : n (r z) + r z * n' ≠ 0) :
    HasDerivAt (fun x => x + s x) (refroIntegrand (n (r z), r z * n')) z := by
  have h1 : HasDerivAt (fun x => r x * n (r x) * sin x)
      ((r' * n (r z) + r z * (n' * r')) * sin z + r z * n (r z) * cos z) z :=
    (hr.mul (hn.comp z hr)).mul (hasDerivAt_sin z)
  have h2 : HasDerivAt (fun x => r x * n (r x) * sin x) 0 z :=
    (hasDerivAt_const z k).congr_of_eventuallyEq hk
  have h3 := h1.unique h2
  refine ((hasDerivAt_id z).add hs).congr_deriv ?_
  have e1 : r' * (n (r z) + r z * n') = -(r z * n (r z)) * (cos z / sin z) := by
    field_simp
    linear_combination h3
  have e2 : r' = -(r z * n (r z)) * (cos z / sin z) / (n (r z) + r z * n') := by
    rw [← e1]; field_simp
  have e3 : s' = -n (r z) / (n (r z) + r z * n') := by
    have : r z * s' = r z * (-n (r z) / (n (r z) + r z * n')) := by
      rw [hdir, e2, tan_eq_sin_div_cos]
      field_simp
    exact mul_left_cancel₀ hr0 this
  rw [e3]
  simp only [refroIntegrand]
  field_simp
  ring

/-- The end points: the zenith distance computed for a level of radius r and index n from the constant k of the ray is
    the one the law of refraction gives, between 0 and 90 degrees. -/
theorem C86_levels (k r n : ℝ) (hrn : 0 < r * n) (h0 : 0 ≤ k) (h1 : k ≤ r * n) :
    r * n * sin (refroAsin (k / (r * n))) = k ∧ 0 ≤ refroAsin (k / (r * n)) ∧ refroAsin (k / (r * n)) ≤ π / 2 := by
  set x := k / (r * n) with hx
  have hx0 : 0 ≤ x := div_nonneg h0 hrn.le
  have hx1 : x ≤ 1 := (div_le_one hrn).2 h1
  have h2 : 0 ≤ 1 - x * x := by nlinarith
  have e : sqrt (max (1 - x * x) 0) ^ 2 + x ^ 2 = 1 := by
    rw [max_eq_left h2, sq_sqrt h2]; ring
  refine ⟨?_, atan2_nonneg hx0, (abs_le.1 (atan2_abs_le_half_pi (sqrt_nonneg _))).2⟩
  rw [refroAsin, (cos_atan2_of_sq e).2, hx, mul_div_cancel₀ _ hrn.ne']

example : (0 : ℝ) < 6389120 * 1.0001 ∧ (6378120 * 1.0003 * 0.5 : ℝ) ≤ 6389120 * 1.0001 := by norm_num

/-- The two parts adjoin: the first runs from the observed zenith distance to that of the ray at the tropopause, the second
    from there to that at 80 km, and both carry the constant of the ray at the observer. -/
theorem C86_parts (z gamal hm tol : ℝ) (a : Tropo) :
    let q := refroQuads z a gamal hm tol
    let n := fun r => (atmt a r).1
    q.1.z0 = z ∧ q.1.rStart = a.r0 ∧ q.2.z0 = q.1.z0 + q.1.zRange ∧ q.2.rStart = 6378120 + max 11000 hm ∧
    q.1.sk0 = a.r0 * n a.r0 * sin z ∧ q.2.sk0 = q.1.sk0 ∧
    (0 < q.2.rStart * n q.2.rStart → 0 ≤ q.1.sk0 → q.1.sk0 ≤ q.2.rStart * n q.2.rStart →
      q.2.rStart * n q.2.rStart * sin q.2.z0 = q.1.sk0) ∧
    (0 < 6458120 * (q.2.atm 6458120).1 → 0 ≤ q.1.sk0 → q.1.sk0 ≤ 6458120 * (q.2.atm 6458120).1 →
      6458120 * (q.2.atm 6458120).1 * sin (q.2.z0 + q.2.zRange) = q.1.sk0) := by
  intro q n
  have es : ∀ r t nt g, (atms r t nt g r).1 = nt := by intro r t nt g; simp [atms]
  have e2 : q.2.z0 = refroAsin (q.1.sk0 / (q.2.rStart * n q.2.rStart)) := by
    simp only [q, refroQuads, es, n]
  have e3 : q.2.z0 + q.2.zRange = refroAsin (q.1.sk0 / (6458120 * (q.2.atm 6458120).1)) := by
    simp only [q, refroQuads]
    rw [show (6378120 : ℝ) + 80000 = 6458120 by norm_num]
    ring
  refine ⟨rfl, rfl, ?_, rfl, ?_, rfl, fun h1 h2 h3 => ?_, fun h1 h2 h3 => ?_⟩
  · simp only [q, refroQuads, es]
    ring
  · simp only [q, refroQuads, n]
    ring
  · rw [e2]
    exact (C86_levels _ _ _ h1 h2 h3).1
  · rw [e3]
    exact (C86_levels _ _ _ h1 h2 h3).1

/-! ## The quadrature -/

/-- Simpson's rule for the integral of `F` from `z` over a range `R` (of either sign) with `n` strips, `n` even. -/
def simpson (F : ℝ → ℝ) (z R : ℝ) (n : ℕ) : ℝ :=
  R / n / 3 * (F z + 4 * ∑ j ∈ Finset.range (n / 2), F (z + R * (2 * j + 1) / n) +
    2 * ∑ j ∈ Finset.range (n / 2 - 1), F (z + R * (2 * j + 2) / n) + F (z + R))

/-- The radius the search of `refro` arrives at for the zenith distance `z` from the estimate `r`. -/
def rayRadius (q : Quad) (z r : ℝ) : ℝ := if sin z > 1e-20 then refroNewton q.atm (q.sk0 / sin z) 4 r 1e6 else r

/-- Starting from radii in `I`, the search stays in `I` and finds the integrand `F` to within `e`. -/
structure Traces (q : Quad) (F : ℝ → ℝ) (I : Set ℝ) (e : ℝ) : Prop where
  start : q.rStart ∈ I
  inside : ∀ r ∈ I, ∀ x ∈ Set.Ioo (0 : ℝ) 1, rayRadius q (q.z0 + q.zRange * x) r ∈ I
  near : ∀ r ∈ I, ∀ x ∈ Set.Ioo (0 : ℝ) 1,
    |refroIntegrand (q.atm (rayRadius q (q.z0 + q.zRange * x) r)) - F (q.z0 + q.zRange * x)| ≤ e
  first : |q.fb - F q.z0| ≤ e
  last : |q.ff - F (q.z0 + q.zRange)| ≤ e

section

variable {q : Quad} {F : ℝ → ℝ} {I : Set ℝ} {e : ℝ} (h : Traces q F I e)

/-- value at point `i` of `n` -/
private def gv (q : Quad) (F : ℝ → ℝ) (n i : ℕ) : ℝ := F (q.z0 + q.zRange * i / n)

private def sOdd (q : Quad) (F : ℝ → ℝ) (k : ℕ) : ℝ := ∑ j ∈ Finset.range k, gv q F (2 * k) (2 * j + 1)
private def sEven (q : Quad) (F : ℝ → ℝ) (k : ℕ) : ℝ := ∑ j ∈ Finset.range (k - 1), gv q F (2 * k) (2 * j + 2)

private theorem simpson_eq (k : ℕ) : simpson F q.z0 q.zRange (2 * k) =
    q.zRange / (2 * k : ℕ) / 3 * (F q.z0 + 4 * sOdd q F k + 2 * sEven q F k + F (q.z0 + q.zRange)) := by
  simp only [simpson, sOdd, sEven, gv, Nat.mul_div_cancel_left k two_pos]
  push_cast
  rfl

private theorem parity_sum (f : ℕ → ℝ) (k : ℕ) : ∑ j ∈ Finset.range (2 * k + 1), f j =
    ∑ j ∈ Finset.range (k + 1), f (2 * j) + ∑ j ∈ Finset.range k, f (2 * j + 1) := by
  induction k with
  | zero => simp
  | succ k ih =>
    rw [show 2 * (k + 1) + 1 = 2 * k + 1 + 1 + 1 by ring, Finset.sum_range_succ, Finset.sum_range_succ, ih,
      Finset.sum_range_succ (n := k + 1), Finset.sum_range_succ (n := k) (f := fun j => f (2 * j + 1))]
    rw [show 2 * k + 1 + 1 = 2 * (k + 1) by ring]
    ring

private theorem sEven_double (k : ℕ) (hk : 0 < k) : sEven q F (2 * k) = sOdd q F k + sEven q F k := by
  obtain ⟨m, rfl⟩ := Nat.exists_eq_succ_of_ne_zero hk.ne'
  have e1 : sEven q F (2 * (m + 1)) = ∑ j ∈ Finset.range (2 * m + 1), gv q F (2 * (m + 1)) (j + 1) := by
    simp only [sEven]
    rw [show 2 * (m + 1) - 1 = 2 * m + 1 by omega]
    refine Finset.sum_congr rfl fun j _ => ?_
    simp only [gv]
    congr 2
    push_cast
    have : (m : ℝ) + 1 ≠ 0 := by positivity
    field_simp
  rw [e1, parity_sum, sOdd, sEven]
  simp only [Nat.succ_eq_add_one, Nat.add_sub_cancel]

include h

private theorem point (n step i : ℕ) (s : QPass) (hs : s.r ∈ I) (h0 : 0 < i) (hi : i < n) :
    (refroPoint q (q.zRange / n) step s i).r ∈ I ∧
    |(refroPoint q (q.zRange / n) step s i).fOdd - s.fOdd - (if step = 1 ∧ i % 2 = 0 then 0 else gv q F n i)| ≤
      (if step = 1 ∧ i % 2 = 0 then 0 else e) ∧
    |(refroPoint q (q.zRange / n) step s i).fEven - s.fEven - (if step = 1 ∧ i % 2 = 0 then gv q F n i else 0)| ≤
      (if step = 1 ∧ i % 2 = 0 then e else 0) := by
  have hn : (0 : ℝ) < n := by exact_mod_cast (by omega : 0 < n)
  have hx : (i : ℝ) / n ∈ Set.Ioo (0 : ℝ) 1 :=
    ⟨div_pos (by exact_mod_cast h0) hn, (div_lt_one hn).2 (by exact_mod_cast hi)⟩
  have ez : q.z0 + q.zRange / n * i = q.z0 + q.zRange * (i / n) := by ring
  have h1 := h.inside s.r hs _ hx
  have h2 := h.near s.r hs _ hx
  have eg : gv q F n i = F (q.z0 + q.zRange * (i / n)) := by
    rw [gv]; congr 2; ring
  simp only [refroPoint, ez]
  change _ ∧ _
  rw [eg]
  rw [rayRadius] at h1 h2
  by_cases hc : step = 1 ∧ i % 2 = 0
  · simp only [if_pos hc]
    refine ⟨h1, by simp, ?_⟩
    rw [add_sub_cancel_left]
    exact h2
  · simp only [if_neg hc]
    refine ⟨h1, ?_, by simp⟩
    rw [add_sub_cancel_left]
    exact h2

private theorem fold (n step : ℕ) : ∀ (l : List ℕ) (s : QPass), (∀ i ∈ l, 0 < i ∧ i < n) → s.r ∈ I →
    (l.foldl (refroPoint q (q.zRange / n) step) s).r ∈ I ∧
    |(l.foldl (refroPoint q (q.zRange / n) step) s).fOdd - s.fOdd -
      (l.map fun i => if step = 1 ∧ i % 2 = 0 then 0 else gv q F n i).sum| ≤
      (l.map fun i => if step = 1 ∧ i % 2 = 0 then 0 else e).sum ∧
    |(l.foldl (refroPoint q (q.zRange / n) step) s).fEven - s.fEven -
      (l.map fun i => if step = 1 ∧ i % 2 = 0 then gv q F n i else 0).sum| ≤
      (l.map fun i => if step = 1 ∧ i % 2 = 0 then e else 0).sum := by
  intro l
  induction l with
  | nil => intro s _ hs; simpa using hs
  | cons i l ih =>
    intro s hl hs
    obtain ⟨p1, p2, p3⟩ := point h n step i s hs (hl i (by simp)).1 (hl i (by simp)).2
    obtain ⟨f1, f2, f3⟩ := ih (refroPoint q (q.zRange / n) step s i) (fun j hj => hl j (by simp [hj])) p1
    simp only [List.foldl_cons, List.map_cons, List.sum_cons]
    refine ⟨f1, ?_, ?_⟩
    · refine le_trans (le_of_eq_of_le ?_ (abs_add_le _ _)) (add_le_add p2 f2)
      congr 1; ring
    · refine le_trans (le_of_eq_of_le ?_ (abs_add_le _ _)) (add_le_add p3 f3)
      congr 1; ring

omit h in
private theorem list_sum (f : ℕ → ℝ) (k : ℕ) :
    ((List.range' 1 k 2).map f).sum = ∑ j ∈ Finset.range k, f (2 * j + 1) := by
  induction k with
  | zero => simp
  | succ k ih =>
    rw [List.range'_concat, List.map_append, List.sum_append, ih, Finset.sum_range_succ]
    simp [add_comm]

omit h in
private theorem points_two (k : ℕ) (hk : 0 < k) : refroPoints (2 * k) 2 = List.range' 1 k 2 := by
  rw [refroPoints]
  congr 1
  omega

/-- State before a pass with `2 k` strips. -/
private def Before (q : Quad) (F : ℝ → ℝ) (e : ℝ) (k : ℕ) (s : QState) : Prop :=
  s.strips = 2 * k ∧ s.fOdd = 0 ∧
  ((k = 4 ∧ s.step = 1 ∧ s.fEven = 0 ∧ s.refOld = 1) ∨
   (8 ≤ k ∧ k % 2 = 0 ∧ s.step = 2 ∧ |s.fEven - sEven q F k| ≤ e * (k - 1) ∧
     |s.refOld - simpson F q.z0 q.zRange k| ≤ e * |q.zRange|))

private theorem pass (k : ℕ) (s : QState) (hs : Before q F e k s) :
    |(quadPass q s).fOdd - sOdd q F k| ≤ e * k ∧ |(quadPass q s).fEven - sEven q F k| ≤ e * (k - 1) := by
  obtain ⟨h1, h2, h3⟩ := hs
  rcases h3 with ⟨rfl, h3, h4, -⟩ | ⟨hk, -, h3, h4, -⟩
  · have hl : refroPoints s.strips s.step = [1, 2, 3, 4, 5, 6, 7] := by rw [h1, h3]; rfl
    obtain ⟨-, f2, f3⟩ := fold h s.strips s.step (refroPoints s.strips s.step) ⟨q.rStart, s.fOdd, s.fEven⟩
      (by rw [hl, h1]; decide) h.start
    rw [quadPass]
    generalize List.foldl (refroPoint q (q.zRange / s.strips) s.step) ⟨q.rStart, s.fOdd, s.fEven⟩
      (refroPoints s.strips s.step) = P at f2 f3 ⊢
    rw [hl, h3, h1] at f2 f3
    rw [h2] at f2
    rw [h4] at f3
    simp only [List.map_cons, List.map_nil, List.sum_cons, List.sum_nil, true_and] at f2 f3
    norm_num at f2 f3
    simp only [sOdd, sEven, Finset.sum_range_succ, Finset.sum_range_zero]
    norm_num
    refine ⟨?_, ?_⟩
    · refine le_trans (le_of_eq ?_) (f2.trans (le_of_eq (by ring)))
      congr 1
      ring
    · refine le_trans (le_of_eq ?_) (f3.trans (le_of_eq (by ring)))
      congr 1
      ring
  · have hl : refroPoints s.strips s.step = List.range' 1 k 2 := by rw [h1, h3, points_two k (by omega)]
    obtain ⟨-, f2, f3⟩ := fold h s.strips s.step (refroPoints s.strips s.step) ⟨q.rStart, s.fOdd, s.fEven⟩
      (by
        rw [hl, h1]
        intro i hi
        rw [List.mem_range'] at hi
        obtain ⟨j, hj, rfl⟩ := hi
        omega) h.start
    rw [quadPass]
    have hst : ∀ i : ℕ, ¬ (s.step = 1 ∧ i % 2 = 0) := fun i hi => by omega
    simp only [if_neg (hst _)] at f2 f3
    rw [hl, list_sum, list_sum] at f2
    rw [hl, list_sum] at f3
    rw [hl]
    simp only [Finset.sum_const_zero, sub_zero, Finset.sum_const, Finset.card_range, nsmul_eq_mul] at f2 f3
    rw [h2, sub_zero] at f2
    have f3' := abs_nonpos_iff.1 f3
    refine ⟨?_, ?_⟩
    · rw [sOdd, ← h1, mul_comm]
      rw [h2]
      exact f2
    · rw [sub_eq_zero.1 f3']
      exact h4

private theorem simpson_near (k : ℕ) (s : QState) (hs : Before q F e k s) :
    |quadSimpson q s (quadPass q s) - simpson F q.z0 q.zRange (2 * k)| ≤ e * |q.zRange| := by
  obtain ⟨p1, p2⟩ := pass h k s hs
  have hk : 0 < k := by rcases hs.2.2 with ⟨h, -⟩ | ⟨h, -⟩ <;> omega
  have hk' : (0 : ℝ) < k := by exact_mod_cast hk
  rw [simpson_eq, quadSimpson, hs.1]
  set a := q.fb + 4 * (quadPass q s).fOdd + 2 * (quadPass q s).fEven + q.ff
  set b := F q.z0 + 4 * sOdd q F k + 2 * sEven q F k + F (q.z0 + q.zRange)
  have hab : |a - b| ≤ e * (6 * k) := by
    have h1 := h.first
    have h2 := h.last
    rw [abs_le] at *
    simp only [a, b]
    constructor <;> nlinarith
  have e1 : q.zRange / (2 * k : ℕ) * a / 3 - q.zRange / (2 * k : ℕ) / 3 * b = q.zRange / (6 * k) * (a - b) := by
    push_cast
    field_simp
    ring
  rw [e1, abs_mul, abs_div, abs_of_pos (by positivity : (0 : ℝ) < 6 * k)]
  calc |q.zRange| / (6 * k) * |a - b| ≤ |q.zRange| / (6 * k) * (e * (6 * k)) :=
        mul_le_mul_of_nonneg_left hab (by positivity)
    _ = e * |q.zRange| := by field_simp

private theorem loop (fuel : ℕ) : ∀ (k : ℕ) (s : QState) (v : ℝ) (n m : ℕ), Before q F e k s →
    quadLoop q fuel s = some (v, n, m) → 8 ≤ n ∧ n % 2 = 0 ∧ |v - simpson F q.z0 q.zRange n| ≤ e * |q.zRange| ∧
      (n < 16384 → (n = 8 ∧ |v - 1| ≤ q.tol) ∨ (n / 2) % 2 = 0 ∧
        |simpson F q.z0 q.zRange n - simpson F q.z0 q.zRange (n / 2)| ≤ q.tol + 2 * (e * |q.zRange|)) := by
  induction fuel with
  | zero => intro k s v n m _ hl; cases hl
  | succ f ih =>
    intro k s v n m hs hl
    have hk : 4 ≤ k := by rcases hs.2.2 with ⟨h, -⟩ | ⟨h, -⟩ <;> omega
    have near := simpson_near h k s hs
    simp only [quadLoop] at hl
    split at hl
    · refine ih (2 * k) _ v n m ?_ hl
      obtain ⟨p1, p2⟩ := pass h k s hs
      refine ⟨by simp only [hs.1]; ring, rfl, Or.inr ⟨by omega, by omega, rfl, ?_, near⟩⟩
      simp only
      rw [sEven_double k (by omega)]
      push_cast
      rw [abs_le] at *
      constructor <;> nlinarith
    · rename_i hc
      simp only [Option.some.injEq, Prod.mk.injEq] at hl
      obtain ⟨rfl, rfl, rfl⟩ := hl
      rw [hs.1]
      refine ⟨by omega, by omega, near, fun hn => ?_⟩
      rw [hs.1] at hc
      have hstop : |quadSimpson q s (quadPass q s) - s.refOld| ≤ q.tol := by
        by_contra h'
        exact hc ⟨not_le.1 h', hn⟩
      rcases hs.2.2 with ⟨h1, -, -, h2⟩ | ⟨h1, h1', -, -, h2⟩
      · left
        rw [h2] at hstop
        exact ⟨by omega, hstop⟩
      · right
        rw [Nat.mul_div_cancel_left k two_pos]
        refine ⟨h1', ?_⟩
        rw [abs_le] at *
        constructor <;> linarith

/-- Each of the two integrals is Simpson's rule for the integrand along the ray, with every interior point weighted as it
    should be although the sums of earlier passes are used again: if the search finds the integrand to within e, the
    integral is that of Simpson's rule with the final number of strips to within e times the range. Unless the limit of
    16384 strips has been reached, Simpson's rule with half as many strips agrees to the tolerance (or else the first
    estimate was already within the tolerance of 1 radian). -/
theorem C86_quadrature (fuel : ℕ) (v : ℝ) (n m : ℕ) (hv : quadLoop q fuel quadInit = some (v, n, m)) :
    8 ≤ n ∧ n % 2 = 0 ∧ |v - simpson F q.z0 q.zRange n| ≤ e * |q.zRange| ∧
    (n < 16384 → (n = 8 ∧ |v - 1| ≤ q.tol) ∨ (n / 2) % 2 = 0 ∧
      |simpson F q.z0 q.zRange n - simpson F q.z0 q.zRange (n / 2)| ≤ q.tol + 2 * (e * |q.zRange|)) :=
  loop h fuel 4 quadInit v n m ⟨rfl, rfl, Or.inl ⟨rfl, rfl, rfl, rfl⟩⟩ hv

end

example : Traces ⟨fun _ => (1, -0.2), 1, 1, 1, -0.5, -0.25, -0.25, 1e-8⟩ (fun _ => -0.25) Set.univ 0 := by
  constructor <;> norm_num [refroIntegrand]

/-- The whole of `refro`: for a zenith distance from 0 to 93 degrees it is the sum of the two integrals of Simpson's
    rule along the ray. -/
theorem C86_refro (ozd oh atk apm arh wl phi tlr eps : ℝ) (hz0 : 0 ≤ ozd) (hz1 : ozd ≤ 1.623156204)
    (F1 F2 : ℝ → ℝ) (I1 I2 : Set ℝ) (e1 e2 : ℝ) :
    let a := refroTropo oh atk apm arh wl phi tlr
    let q := refroQuads ozd a.1 a.2 (min (max oh (-1000)) 80000) (min (max |eps| 1e-12) 0.1 / 2)
    Traces q.1 F1 I1 e1 → Traces q.2 F2 I2 e2 →
    ∃ n1 n2 : ℕ, 8 ≤ n1 ∧ 8 ≤ n2 ∧ n1 ≤ 16384 ∧ n2 ≤ 16384 ∧
      |refro ozd oh atk apm arh wl phi tlr eps -
        (simpson F1 q.1.z0 q.1.zRange n1 + simpson F2 q.2.z0 q.2.zRange n2)| ≤
        e1 * |q.1.zRange| + e2 * |q.2.zRange| := by
  intro a q t1 t2
  have hpi := pi_gt_d2
  have hd : drange ozd = ozd := by
    refine (C15_drange_laws ozd).1 ?_
    rw [abs_of_nonneg hz0]
    norm_num at *
    linarith
  have hmin : min |drange ozd| 1.623156204 = ozd := by rw [hd, abs_of_nonneg hz0, min_eq_left hz1]
  have hn : ¬ drange ozd < 0 := by rw [hd]; exact not_lt.2 hz0
  have hm : min (max oh (-1e3)) 80000 = min (max oh (-1000)) 80000 := by norm_num
  obtain ⟨r1, n1, h1, h1', -⟩ := C54_quadrature q.1
  obtain ⟨r2, n2, h2, h2', -⟩ := C54_quadrature q.2
  have e : refro ozd oh atk apm arh wl phi tlr eps = r1 + r2 := by
    unfold refro refroFuel
    simp only [hmin, hm, if_neg hn]
    change (match quadLoop q.1 12 quadInit with
      | none => none
      | some reft => match quadLoop q.2 12 quadInit with
        | none => none
        | some refp => some (reft.1 + refp.1)).getD 0 = r1 + r2
    rw [h1 12 le_rfl, h2 12 le_rfl]
    rfl
  obtain ⟨a1, -, b1, -⟩ := C86_quadrature t1 12 r1 n1 _ (h1 12 le_rfl)
  obtain ⟨a2, -, b2, -⟩ := C86_quadrature t2 12 r2 n2 _ (h2 12 le_rfl)
  refine ⟨n1, n2, a1, a2, h1', h2', ?_⟩
  rw [e, show r1 + r2 - (simpson F1 q.1.z0 q.1.zRange n1 + simpson F2 q.2.z0 q.2.zRange n2) =
    (r1 - simpson F1 q.1.z0 q.1.zRange n1) + (r2 - simpson F2 q.2.z0 q.2.zRange n2) by ring]
  exact (abs_add_le _ _).trans (add_le_add b1 b2)

/-- The search for the radius of the ray. Let r n(r) have the derivative the atmosphere routine implies, at least m > 0
    and changing by at most L per unit of radius, in an interval about the true radius x. From a starting point within d
    of x, if (L/m) d is at most 1/4, the search comes out within max((L/m)^15 d^16, 2 L/m) of x, and never farther than
    it started. -/
theorem C86_search (atm : ℝ → ℝ × ℝ) (ww x d m L rg : ℝ) (hm : 0 < m) (hL : 0 ≤ L)
    (hd : ∀ r, |r - x| ≤ d → HasDerivAt (fun r => r * (atm r).1) ((atm r).1 + (atm r).2) r)
    (hmin : ∀ r, |r - x| ≤ d → m ≤ (atm r).1 + (atm r).2)
    (hlip : ∀ r s, |r - x| ≤ d → |s - x| ≤ d →
      |((atm r).1 + (atm r).2) - ((atm s).1 + (atm s).2)| ≤ L * |r - s|)
    (hx : x * (atm x).1 = ww) (hc : L / m * d ≤ 1 / 4) (hrg : |rg - x| ≤ d) :
    |refroNewton atm ww 4 rg 1e6 - x| ≤ max ((L / m) ^ 15 * d ^ 16) (2 * (L / m)) ∧
    |refroNewton atm ww 4 rg 1e6 - x| ≤ |rg - x| := by
  set c := L / m with hcd
  have hc0 : 0 ≤ c := div_nonneg hL hm.le
  have step : ∀ r, |r - x| ≤ d →
      |r - (r * (atm r).1 - ww) / ((atm r).1 + (atm r).2) - x| ≤ c * |r - x| ^ 2 := by
    intro r hr
    set D := (atm r).1 + (atm r).2 with hD
    have hDm : m ≤ D := hmin r hr
    have hD0 : 0 < D := lt_of_lt_of_le hm hDm
    -- mean value
    have mv : |r * (atm r).1 - ww - D * (r - x)| ≤ L * |r - x| * |r - x| := by
      have key : ∀ y ∈ Set.uIcc x r, |y - x| ≤ |r - x| ∧ |y - r| ≤ |r - x| := by
        intro y hy
        rcases le_total x r with h | h
        · rw [Set.uIcc_of_le h] at hy
          rw [abs_of_nonneg (sub_nonneg.2 hy.1), abs_of_nonneg (sub_nonneg.2 h), abs_of_nonpos (by linarith [hy.2])]
          constructor <;> linarith [hy.1, hy.2]
        · rw [Set.uIcc_of_ge h] at hy
          rw [abs_of_nonpos (by linarith [hy.2]), abs_of_nonpos (by linarith : r - x ≤ 0),
            abs_of_nonneg (by linarith [hy.1])]
          constructor <;> linarith [hy.1, hy.2]
      have hb := (convex_uIcc x r).norm_image_sub_le_of_norm_hasDerivWithin_le
        (f := fun y => y * (atm y).1 - D * y) (f' := fun y => (atm y).1 + (atm y).2 - D) (C := L * |r - x|)
        (x := x) (y := r) (fun y hy => by
          have h1 := hd y ((key y hy).1.trans hr)
          have h2 := h1.sub ((hasDerivAt_id y).const_mul D)
          refine (h2.congr_deriv ?_).hasDerivWithinAt
          simp) (fun y hy => by
          rw [Real.norm_eq_abs]
          exact (hlip y r ((key y hy).1.trans hr) hr).trans (mul_le_mul_of_nonneg_left (key y hy).2 hL))
        Set.left_mem_uIcc Set.right_mem_uIcc
      simp only [Real.norm_eq_abs] at hb
      rw [hx] at hb
      refine le_trans (le_of_eq ?_) hb
      congr 1
      ring
    have e1 : r - (r * (atm r).1 - ww) / D - x = -(r * (atm r).1 - ww - D * (r - x)) / D := by
      field_simp
      ring
    rw [e1, abs_div, abs_neg, abs_of_pos hD0, div_le_iff₀ hD0]
    calc _ ≤ L * |r - x| * |r - x| := mv
      _ = c * |r - x| ^ 2 * m := by rw [hcd]; field_simp
      _ ≤ c * |r - x| ^ 2 * D := mul_le_mul_of_nonneg_left hDm (by positivity)
  have quarter : ∀ r, |r - x| ≤ d → c * |r - x| ^ 2 ≤ |r - x| / 4 := by
    intro r hr
    have h1 : c * |r - x| ≤ 1 / 4 := (mul_le_mul_of_nonneg_left hr hc0).trans hc
    nlinarith [abs_nonneg (r - x)]
  -- the search from any estimate and last correction
  have main : ∀ (k : ℕ) (r dr : ℝ), |r - x| ≤ d → (|dr| ≤ 1 → |r - x| ≤ 2 * c) →
      |refroNewton atm ww k r dr - x| ≤ max (c ^ (2 ^ k - 1) * |r - x| ^ (2 ^ k)) (2 * c) ∧
      |refroNewton atm ww k r dr - x| ≤ |r - x| := by
    intro k
    induction k with
    | zero =>
      intro r dr hr _
      simp [refroNewton]
    | succ k ih =>
      intro r dr hr hdr
      simp only [refroNewton]
      split
      · have hs := step r hr
        have hq := quarter r hr
        set y := r - (r * (atm r).1 - ww) / ((atm r).1 + (atm r).2) with hy
        have hyr : |y - x| ≤ |r - x| / 4 := hs.trans hq
        have hyr' : |y - x| ≤ |r - x| := hyr.trans (by linarith [abs_nonneg (r - x)])
        obtain ⟨i1, i2⟩ := ih y ((r * (atm r).1 - ww) / ((atm r).1 + (atm r).2)) (hyr'.trans hr) (by
          intro hsmall
          have e : r - x = (r * (atm r).1 - ww) / ((atm r).1 + (atm r).2) + (y - x) := by rw [hy]; ring
          have h1 : |r - x| ≤ 1 + |r - x| / 4 := by
            calc |r - x| ≤ _ := by conv_lhs => rw [e]
                                   exact abs_add_le _ _
              _ ≤ 1 + |r - x| / 4 := add_le_add hsmall hyr
          have h2 : |r - x| ≤ 4 / 3 := by linarith
          have h3 : |r - x| ^ 2 ≤ 16 / 9 := by nlinarith [abs_nonneg (r - x)]
          calc |y - x| ≤ c * |r - x| ^ 2 := hs
            _ ≤ c * (16 / 9) := mul_le_mul_of_nonneg_left h3 hc0
            _ ≤ 2 * c := by linarith)
        refine ⟨i1.trans (max_le_max ?_ le_rfl), i2.trans hyr'⟩
        calc c ^ (2 ^ k - 1) * |y - x| ^ 2 ^ k ≤ c ^ (2 ^ k - 1) * (c * |r - x| ^ 2) ^ 2 ^ k :=
              mul_le_mul_of_nonneg_left (pow_le_pow_left₀ (abs_nonneg _) hs _) (by positivity)
          _ = c ^ (2 ^ (k + 1) - 1) * |r - x| ^ 2 ^ (k + 1) := by
              have h1 : 1 ≤ 2 ^ k := Nat.one_le_two_pow
              rw [mul_pow, ← pow_mul, ← mul_assoc, ← pow_add, pow_succ 2 k, mul_comm 2 (2 ^ k)]
              congr 2
              omega
      · rename_i hn
        exact ⟨le_max_of_le_right (hdr (not_lt.1 hn)), le_rfl⟩
  obtain ⟨m1, m2⟩ := main 4 rg 1e6 hrg (by intro h; norm_num at h)
  refine ⟨m1.trans (max_le_max ?_ le_rfl), m2⟩
  norm_num
  exact mul_le_mul_of_nonneg_left (pow_le_pow_left₀ (abs_nonneg _) hrg _) (by positivity)

/-- The hypotheses are met by an index falling off linearly. -/
example : ∃ (atm : ℝ → ℝ × ℝ) (ww x d m L rg : ℝ), 0 < m ∧ 0 < L ∧ L / m * d ≤ 1 / 4 ∧ |rg - x| ≤ d ∧ rg ≠ x ∧
    x * (atm x).1 = ww ∧ (∀ r, |r - x| ≤ d → HasDerivAt (fun r => r * (atm r).1) ((atm r).1 + (atm r).2) r) ∧
    (∀ r, |r - x| ≤ d → m ≤ (atm r).1 + (atm r).2) ∧ ∀ r s, |r - x| ≤ d → |s - x| ≤ d →
      |((atm r).1 + (atm r).2) - ((atm s).1 + (atm s).2)| ≤ L * |r - s| := by
  refine ⟨fun r => (1.5 - r / 2e7, -(r / 2e7)), 6e6 * 1.2, 6e6, 1e5, 0.8, 1e-7, 6.05e6, by norm_num, by norm_num,
    by norm_num, by norm_num [abs_le], by norm_num, by norm_num, fun r _ => ?_, fun r h => ?_, fun r s _ _ => ?_⟩
  · have := (hasDerivAt_id r).mul (((hasDerivAt_id r).div_const 2e7).const_sub 1.5)
    refine this.congr_deriv ?_
    simp only [id]
    ring
  · rw [abs_le] at h
    norm_num at h ⊢
    linarith [h.2]
  · rw [show (1.5 - r / 2e7 + -(r / 2e7)) - (1.5 - s / 2e7 + -(s / 2e7)) = -(1e-7 * (r - s)) by norm_num; ring,
      abs_neg, abs_mul, abs_of_pos (by norm_num : (0 : ℝ) < 1e-7)]

/-- `refcoq` uses the refractivity of the same air: A = g (1 - b), B = -g (b - g/2), with g the refractivity at the
    observer (the same for radio, to 3e-12 p/T for light) and b = 4.4474e-6 T the height of the equivalent homogeneous
    atmosphere in Earth radii, for radio with the correction for water vapour. -/
theorem C86_refcoq (atk apm arh wl : ℝ) (ht : 100 ≤ atk ∧ atk ≤ 500) (hp : 0 < apm ∧ apm ≤ 10000)
    (hr : 0 ≤ arh ∧ arh ≤ 1) (hw : 0.1 ≤ wl ∧ wl ≤ 1000000) :
    let pw := vapourPressure atk apm arh
    let b := 4.4474e-6 * atk * (if wl ≤ 100 then 1 else 1 - 0.0074 * pw)
    ∃ g, refcoq atk apm arh wl = (g * (1 - b), -g * (b - g / 2)) ∧
      |g - refractivity wl atk apm pw| ≤ if wl ≤ 100 then 3e-9 * (apm / atk) else 0 := by
  intro pw b
  have hw0 : 0 < wl := by norm_num at hw; linarith [hw.1]
  have ht0 : 0 < atk := by linarith [ht.1]
  have e1 : min (max atk 100) 500 = atk := by rw [max_eq_left ht.1, min_eq_left ht.2]
  have e2 : min (max apm 0) 10000 = apm := by rw [max_eq_left hp.1.le, min_eq_left hp.2]
  have e3 : min (max arh 0) 1 = arh := by rw [max_eq_left hr.1, min_eq_left hr.2]
  have e4 : min (max wl 0.1) 1e6 = wl := by
    rw [max_eq_left hw.1, min_eq_left (le_trans hw.2 (by norm_num))]
  have ep : arh * ((10 : ℝ) ^ ((0.7859 + 0.03477 * (atk - 273.15)) / (1 + 0.00412 * (atk - 273.15))) *
      (1 + apm * (4.5e-6 + 6.0e-10 * (atk - 273.15) * (atk - 273.15)))) / (1 - (1 - arh) *
      ((10 : ℝ) ^ ((0.7859 + 0.03477 * (atk - 273.15)) / (1 + 0.00412 * (atk - 273.15))) *
      (1 + apm * (4.5e-6 + 6.0e-10 * (atk - 273.15) * (atk - 273.15)))) / apm) = pw := by
    simp only [pw, vapourPressure, satPressure]
    congr 3 <;> ring_nf
  simp only [refcoq, e1, e2, e3, e4, if_pos hp.1, ep]
  by_cases ho : wl ≤ 100
  · simp only [if_pos ho, b]
    refine ⟨_, by rw [mul_one], ?_⟩
    simp only [refractivity, if_pos ho]
    have hq : 0 ≤ apm / atk := div_nonneg hp.1.le ht0.le
    obtain ⟨u, hu⟩ : ∃ u, u = 1 / wl ^ 2 := ⟨_, rfl⟩
    have hu0 : 0 ≤ u := by rw [hu]; positivity
    have hu1 : u ≤ 100 := by
      rw [hu, div_le_iff₀ (by positivity)]
      have := hw.1
      norm_num at this
      nlinarith
    have e : ((77.53484e-6 + (4.39108e-7 + 3.666e-9 / (wl * wl)) / (wl * wl)) * apm - 11.2684e-6 * pw) / atk -
        ((287.6155 + 1.62887 / wl ^ 2 + 0.0136 / wl ^ 4) * 1e-6 * (273.15 / 1013.25) * apm - 11.2684e-6 * pw) / atk =
        ((77.53484e-6 - 287.6155e-6 * (273.15 / 1013.25)) + (4.39108e-7 - 1.62887e-6 * (273.15 / 1013.25)) * u +
          (3.666e-9 - 0.0136e-6 * (273.15 / 1013.25)) * u ^ 2) * (apm / atk) := by
      rw [hu]
      field_simp
      ring
    rw [e, abs_mul, abs_of_nonneg hq]
    refine mul_le_mul_of_nonneg_right ?_ hq
    have hu2 : u ^ 2 ≤ 10000 := by nlinarith
    have hu3 : 0 ≤ u ^ 2 := by positivity
    rw [abs_le]
    norm_num
    constructor <;> linarith
  · simp only [if_neg ho, b]
    refine ⟨(77.6890e-6 * apm - (6.3938e-6 - 0.375463 / atk) * pw) / atk, ?_, ?_⟩
    · congr 1 <;> ring
    · simp only [refractivity, if_neg ho]
      rw [abs_nonpos_iff]
      field_simp
      ring

example : (100 : ℝ) ≤ 280 ∧ (0 : ℝ) < 1000 ∧ (0.1 : ℝ) ≤ 0.55 := by norm_num

private theorem atmdspN_dry (atk apm wl : ℝ) (ht : 100 ≤ atk ∧ atk ≤ 500) (hp : 0 < apm ∧ apm ≤ 10000)
    (hw : 0.1 ≤ wl ∧ wl ≤ 100) : 0 < refractivity wl atk apm 0 ∧
      |atmdspN atk apm 0 wl - refractivity wl atk apm 0| ≤ 2.1e-4 * refractivity wl atk apm 0 := by
  have hw0 : 0 < wl := by norm_num at hw; linarith [hw.1]
  have ht0 : 0 < atk := by linarith [ht.1]
  have e1 : min (max atk 100) 500 = atk := by rw [max_eq_left ht.1, min_eq_left ht.2]
  have e2 : min (max apm 0) 10000 = apm := by rw [max_eq_left hp.1.le, min_eq_left hp.2]
  have e3 : min (max (0 : ℝ) 0) 1 = 0 := by norm_num
  have e4 : max wl 0.1 = wl := max_eq_left hw.1
  have hq : 0 < apm / atk := div_pos hp.1 ht0
  obtain ⟨u, hu⟩ : ∃ u, u = 1 / wl ^ 2 := ⟨_, rfl⟩
  have hu0 : 0 ≤ u := by rw [hu]; positivity
  have hu1 : u ≤ 100 := by
    rw [hu, div_le_iff₀ (by positivity)]
    have := hw.1
    norm_num at this
    nlinarith
  have a1 : atmdspN atk apm 0 wl = (77.5317e-6 + 0.43909e-6 * u + 0.00367e-6 * u ^ 2) * (apm / atk) := by
    simp only [atmdspN, e1, e2, e3, e4]
    generalize (10 : ℝ) ^ (-8.7115 + 0.03477 * atk) = G
    rw [hu]
    field_simp
    ring
  have a2 : refractivity wl atk apm 0 = (287.6155 + 1.62887 * u + 0.0136 * u ^ 2) * 1e-6 * (273.15 / 1013.25) *
      (apm / atk) := by
    simp only [refractivity, if_pos hw.2]
    rw [hu]
    field_simp
    ring
  have hu2 : u ^ 2 ≤ 100 * u := by nlinarith
  have hu3 : 0 ≤ u ^ 2 := by positivity
  rw [a1, a2]
  constructor
  · refine mul_pos ?_ hq
    norm_num
    linarith
  · rw [← sub_mul, abs_mul, abs_of_pos hq, ← mul_assoc]
    refine mul_le_mul_of_nonneg_right ?_ hq.le
    rw [abs_le]
    norm_num
    constructor <;> linarith

/-- `atmdsp` in dry air moves the tan z coefficient from one wavelength to another in the ratio of the refractivities of
    the model atmosphere of `refro`, to 5 parts in ten thousand. -/
theorem C86_atmdsp (atk apm wl1 wl2 a1 b1 : ℝ) (ht : 100 ≤ atk ∧ atk ≤ 500) (hp : 0 < apm ∧ apm ≤ 10000)
    (hw1 : 0.1 ≤ wl1 ∧ wl1 ≤ 100) (hw2 : 0.1 ≤ wl2 ∧ wl2 ≤ 100) :
    |(atmdsp atk apm 0 wl1 a1 b1 wl2).1 - a1 * (refractivity wl2 atk apm 0 / refractivity wl1 atk apm 0)| ≤
      5e-4 * |a1| * (refractivity wl2 atk apm 0 / refractivity wl1 atk apm 0) := by
  obtain ⟨p1, h1⟩ := atmdspN_dry atk apm wl1 ht hp hw1
  obtain ⟨p2, h2⟩ := atmdspN_dry atk apm wl2 ht hp hw2
  have hn : ¬ (wl1 > 100 ∨ wl2 > 100) := by push Not; exact ⟨hw1.2, hw2.2⟩
  simp only [atmdsp, if_neg hn]
  generalize refractivity wl1 atk apm 0 = g1 at *
  generalize refractivity wl2 atk apm 0 = g2 at *
  generalize atmdspN atk apm 0 wl1 = d1 at *
  generalize atmdspN atk apm 0 wl2 = d2 at *
  rw [abs_le] at h1 h2
  norm_num at h1 h2
  have hd1 : 0 < d1 := by linarith [h1.1]
  rw [if_pos hd1.ne']
  simp only
  rw [← mul_sub, abs_mul, mul_comm (5e-4) |a1|, mul_assoc]
  refine mul_le_mul_of_nonneg_left ?_ (abs_nonneg _)
  have e : d2 / d1 - g2 / g1 = (d2 * g1 - g2 * d1) / (d1 * g1) := by field_simp
  have hp12 : 0 < g1 * g2 := mul_pos p1 p2
  rw [e, abs_div, abs_of_pos (mul_pos hd1 p1), div_le_iff₀ (mul_pos hd1 p1),
    show (5e-4 : ℝ) * (g2 / g1) * (d1 * g1) = 5e-4 * (g2 * d1) by field_simp]
  have k1 : d2 * g1 ≤ (g2 + 21 / 100000 * g2) * g1 := mul_le_mul_of_nonneg_right (by linarith [h2.2]) p1.le
  have k2 : (g2 - 21 / 100000 * g2) * g1 ≤ d2 * g1 := mul_le_mul_of_nonneg_right (by linarith [h2.1]) p1.le
  have k3 : (g1 - 21 / 100000 * g1) * g2 ≤ d1 * g2 := mul_le_mul_of_nonneg_right (by linarith [h1.1]) p2.le
  have k4 : d1 * g2 ≤ (g1 + 21 / 100000 * g1) * g2 := mul_le_mul_of_nonneg_right (by linarith [h1.2]) p2.le
  rw [abs_le]
  norm_num
  constructor <;> nlinarith

example : (100 : ℝ) ≤ 280 ∧ (0 : ℝ) < 1000 ∧ (0.1 : ℝ) ≤ 0.4 ∧ (0.7 : ℝ) ≤ 100 := by norm_num

end Sla.Props
