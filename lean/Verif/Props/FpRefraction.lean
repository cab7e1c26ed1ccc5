import Verif.Lemmas.FpRefraction
import Verif.Lemmas.FpRefractionVec
import Verif.Props.RefractionInverse

/-
C119: refraction of a zenith distance and of a vector in double precision.
-/
namespace Sla.Props
open Sla.Fp Real

/-- **C119**: the computed zenith distance of `refz` is within 5.7e-14 radians of what exact arithmetic gives, and within 3.1e-15
where only the two-term model is used. -/
theorem C119_refz (R : Rounding binary64) {sn cs : ℝ → ℝ} (hs : ∀ x, |sn x - sin x| ≤ 2e-16) (hc : ∀ x, |cs x - cos x| ≤ 2e-16)
    (zu A B : ℝ) (h : Ordinary A B) (hA : A ≤ 4e-4) (h0 : 0 ≤ zu) (h4 : zu ≤ 4) :
    |Fp.refz R sn cs zu A B - refz zu A B| ≤ 5.7e-14 ∧ (zu ≤ 1.4486 → |Fp.refz R sn cs zu A B - refz zu A B| ≤ 3.1e-15) :=
  refz_near R.dbl hs hc h0 h4 h.1 hA h.2.1 h.2.2

/-- **C119**: `refz` in double precision recovers the observed zenith distance `z`, up to nearly 83 degrees, from the unrefracted one that
the formula A tan z + B tan³ z gives, to 1.31e-12 radians. -/
theorem C119_inverts (R : Rounding binary64) {sn cs : ℝ → ℝ} (hs : ∀ x, |sn x - sin x| ≤ 2e-16) (hc : ∀ x, |cs x - cos x| ≤ 2e-16)
    (A B z : ℝ) (h : Ordinary A B) (hA : A ≤ 4e-4) (h0 : 0 ≤ z) (h1 : z ≤ 83 * (π / 180)) (hu : unrefracted A B z ≤ 1.4486) :
    |Fp.refz R sn cs (unrefracted A B z) A B - z| ≤ 1.31e-12 := by
  have hpi := pi_gt_d6
  have hpi' := pi_lt_d4
  have hu' : unrefracted A B z ≤ 83 * (π / 180) := hu.trans (by norm_num at hpi ⊢; linarith)
  obtain ⟨c1, c2⟩ := C87_round_trip A B z h h0 h1 hu'
  have hz0 : 0 ≤ unrefracted A B z := by
    by_contra hn
    push Not at hn
    have h2 := tan_nonneg_of_nonneg_of_le_pi_div_two h0 (by linarith)
    have hc83 : 0.1218 ≤ cos z := (refz_exact h.1 hA h.2.1 h.2.2 (z := z) (by rw [abs_of_nonneg h0, refz_thr.2.2]; exact h1)).1
    obtain ⟨-, -, m⟩ := refz_exact h.1 hA h.2.1 h.2.2 (z := z) (by rw [abs_of_nonneg h0, refz_thr.2.2]; exact h1)
    have := (m h0).1
    have e : unrefracted A B z = z + (A * (sin z / cos z) + B * (sin z / cos z * (sin z / cos z * (sin z / cos z)))) := by
      unfold unrefracted; rw [tan_eq_sin_div_cos]; ring
    linarith
  have hb := (C119_refz R hs hc (unrefracted A B z) A B h hA hz0 (by linarith)).2 hu
  have hcu : 0.1218 ≤ cos (unrefracted A B z) :=
    (refz_exact h.1 hA h.2.1 h.2.2 (z := unrefracted A B z) (by rw [abs_of_nonneg hz0, refz_thr.2.2]; exact hu')).1
  have ht0 : 0 ≤ tan (unrefracted A B z) := tan_nonneg_of_nonneg_of_le_pi_div_two hz0 (by linarith)
  have ht : tan (unrefracted A B z) ≤ 8.15 := by
    by_contra hn
    push Not at hn
    have hcp : 0 < cos (unrefracted A B z) := by linarith
    have hss := sin_sq_add_cos_sq (unrefracted A B z)
    rw [tan_eq_sin_div_cos, lt_div_iff₀ hcp] at hn
    generalize sin (unrefracted A B z) = s at *
    generalize cos (unrefracted A B z) = c at *
    have k1 : (8.15 * c) ^ 2 ≤ s ^ 2 := pow_le_pow_left₀ (by positivity) hn.le 2
    have k2 : (0.1218 : ℝ) ^ 2 ≤ c ^ 2 := pow_le_pow_left₀ (by norm_num) hcu 2
    norm_num [mul_pow] at k1 k2
    linarith
  have hA0 := h.1
  have c3 : (A * tan (unrefracted A B z) * (1 + tan (unrefracted A B z) ^ 2)) ^ 3 * (A * tan (unrefracted A B z)) ^ 4 ≤ 1.3e-12 := by
    calc (A * tan (unrefracted A B z) * (1 + tan (unrefracted A B z) ^ 2)) ^ 3 * (A * tan (unrefracted A B z)) ^ 4
        ≤ (4e-4 * 8.161 * (1 + 8.161 ^ 2)) ^ 3 * (4e-4 * 8.161) ^ 4 := by gcongr <;> linarith
      _ ≤ 1.3e-12 := by norm_num
  have hd : |refz (unrefracted A B z) A B - z| ≤ 1.3e-12 := by
    rw [abs_of_nonneg (by linarith)]; linarith
  have := abs_sub_le (Fp.refz R sn cs (unrefracted A B z) A B) (refz (unrefracted A B z) A B) z
  norm_num at hb hd ⊢
  linarith

/-- Constants of 60 and −0.066 arcseconds, observed zenith distance 60 degrees. -/
example : Ordinary 2.9e-4 (-3.2e-7) ∧ (2.9e-4 : ℝ) ≤ 4e-4 ∧ 0 ≤ π / 3 ∧ π / 3 ≤ 83 * (π / 180) ∧ unrefracted 2.9e-4 (-3.2e-7) (π / 3) ≤ 1.4486 := by
  have hpi' := pi_lt_d4
  refine ⟨by unfold Ordinary; norm_num, by norm_num, by positivity, by linarith [pi_pos], ?_⟩
  unfold unrefracted
  rw [tan_pi_div_three]
  have h3 : √3 ≤ 2 := Real.sqrt_le_iff.2 ⟨by norm_num, by norm_num⟩
  have h30 := Real.sqrt_nonneg 3
  have : 0 ≤ √3 ^ 3 := by positivity
  norm_num at hpi' ⊢
  linarith

/-- **C119**: each component that `refv` computes is within 1.02e-14 of what exact arithmetic gives, for all directions, above and
below the horizon; the vector need not be a unit vector to better than 1e-3. -/
theorem C119_refv (R : Rounding binary64) (v : Vec) (A B : ℝ) (h : Ordinary A B) (hA : A ≤ 4e-4)
    (hxy : v 0 * v 0 + v 1 * v 1 ≤ 1.001) (hz : |v 2| ≤ 1.001) (i : Fin 3) :
    |Fp.refv R v A B i - refv v A B i| ≤ 1.02e-14 :=
  refv_near R.dbl v h.1 hA h.2.1 h.2.2 hxy hz i

example : Ordinary 2.9e-4 (-3.2e-7) ∧ (0.6 * 0.6 + 0 * 0 : ℝ) ≤ 1.001 ∧ |(0.8 : ℝ)| ≤ 1.001 := by
  refine ⟨by unfold Ordinary; norm_num, by norm_num, by norm_num⟩

end Sla.Props
