import Verif.Model.FpTangentPointSingle
import Verif.Lemmas.FpTangentPointSingle
import Verif.Props.FpTangentSingle

/-
Property theorems C133: the tangent point of a star in single precision.
-/
namespace Sla.Props
open Sla.Fp Sla.Spec Matrix

/-- One solution: the rounded right ascension and declination against the exact ones. -/
private theorem solution_near (R : Rounding binary32) {at2 : ℝ → ℝ → ℝ} {ε : ℝ} (hε : ε ≤ 0.01) (ha : Atan2Near at2 ε)
    {xi r r' s s' c c' pa pb cd q : ℝ} (hpa : |pa| ≤ 6.3) (q0 : 1e-2 ≤ q) (hcd : 0 < cd) (hcd1 : cd ≤ 1) (hqc : q ≤ 1.4143 * cd)
    (hr : |r' - r| ≤ 1.872e-6 / q) (hh : cd ^ 2 ≤ r * r + xi * xi) (hs : |s' - s| ≤ 4.476e-6 / q) (hc : |c' - c| ≤ 4.524e-6 / q)
    (hsc : 1 ≤ c * c + s * s) (a b : ℝ) (hb : b = Fp.dranrm R (R (pa - at2 xi r'))) (ea : a = at2 s' c') (epb : pb = Sla.dranrm (pa - atan2 xi r)) :
    angleBetween (direction b a) (direction pb (atan2 s c)) ≤ 3.15 * ε + 2.37e-5 / (q * cd) ∧ 0 ≤ b ∧ b ≤ 13176795 / 2 ^ 21 := by
  have ε0 : 0 ≤ ε := (abs_nonneg _).trans (ha.1 0 0 (Or.inr le_rfl))
  have hpi := Real.pi_lt_d6
  have hpp := Real.pi_pos
  have qp : 0 < q := lt_of_lt_of_le (by norm_num) q0
  have qc : 0 < q * cd := mul_pos qp hcd
  -- the inverse of the product measures everything
  obtain ⟨w, hw⟩ : ∃ w, w = 1 / (q * cd) := ⟨_, rfl⟩
  have w1 : 1 / q ≤ w := by
    rw [hw]; exact one_div_le_one_div_of_le qc (mul_le_of_le_one_right qp.le hcd1)
  have q2 : q ≤ 1.4143 := hqc.trans (by norm_num at hcd1 ⊢; linarith)
  have wl : 1 ≤ 1.4143 * w := by
    rw [hw, mul_one_div, le_div_iff₀ qc, one_mul]
    calc q * cd ≤ q * 1 := mul_le_mul_of_nonneg_left hcd1 qp.le
      _ ≤ _ := by rw [mul_one]; exact q2
  have wu : w ≤ 1.4143e4 := by
    rw [hw, div_le_iff₀ qc]
    have h1 : q * q ≤ q * (1.4143 * cd) := mul_le_mul_of_nonneg_left hqc qp.le
    have h2 : 1e-2 * 1e-2 ≤ q * q := mul_le_mul q0 q0 (by norm_num) qp.le
    norm_num at h1 h2 ⊢; linarith
  -- declination
  obtain ⟨k1, t1⟩ := atan2_turn_near (x := c) (y := s) (x' := c') (y' := s') (L := 1) (d := 6.372e-6 / q) one_pos (by linarith) (by positivity) (by
      have h1 := pow_le_pow_left₀ (abs_nonneg _) hc 2
      have h2 := pow_le_pow_left₀ (abs_nonneg _) hs 2
      rw [sq_abs, div_pow] at h1 h2
      rw [div_pow]
      refine (add_le_add h1 h2).trans ?_
      rw [← add_div]
      exact div_le_div_of_nonneg_right (by norm_num) (by positivity)) (by
      rw [div_lt_one qp]; exact lt_of_lt_of_le (by norm_num) q0)
  -- right ascension
  obtain ⟨k2, t2⟩ := atan2_turn_near (x := r) (y := xi) (x' := r') (y' := xi) (L := cd) (d := 1.872e-6 / q) hcd hh (by positivity) (by
      have h1 := pow_le_pow_left₀ (abs_nonneg _) hr 2
      rw [sq_abs] at h1
      rw [sub_self]; linarith) (by
      rw [div_lt_iff₀ qp]
      have h2 : 1e-2 * 1e-2 ≤ q * q := mul_le_mul q0 q0 (by norm_num) qp.le
      have h1 : q * q ≤ q * (1.4143 * cd) := mul_le_mul_of_nonneg_left hqc qp.le
      norm_num at h1 h2 ⊢; linarith)
  obtain ⟨k3, t3, b3⟩ := at2_turn ha s' c'
  obtain ⟨k4, t4, b4⟩ := at2_turn ha xi r'
  have hsum : |R (pa - at2 xi r') - (pa - at2 xi r')| ≤ 5.712e-7 :=
    R.single.lit (B := 9.5) ((abs_sub _ _).trans (by norm_num at *; linarith)) (by norm_num)
  have hrange : |R (pa - at2 xi r')| ≤ 9.6 := by
    have h1 := abs_sub pa (at2 xi r')
    have h2 := abs_sub_abs_le_abs_sub (R (pa - at2 xi r')) (pa - at2 xi r')
    norm_num at *; linarith
  obtain ⟨⟨m, hm⟩, r0, r1⟩ := ranorm_wide R (R.rep (pa - at2 xi r')) hrange
  rw [← hb] at hm r0 r1
  refine ⟨?_, r0, r1⟩
  have d1 : 6.372e-6 / q / 1 = 6.372e-6 * (1 / q) := by ring
  have d2 : 1.872e-6 / q / cd = 1.872e-6 * w := by rw [hw]; field_simp
  rw [d1] at t1
  rw [d2] at t2
  have t1' : |atan2 s' c' - (atan2 s c + 2 * Real.pi * k1)| ≤ 1.00092e-5 * w := by
    refine t1.trans ?_
    calc Real.pi / 2 * (6.372e-6 * (1 / q)) ≤ 1.5708 * (6.372e-6 * w) :=
          mul_le_mul (by norm_num at hpi ⊢; linarith) (mul_le_mul_of_nonneg_left w1 (by norm_num)) (by positivity) (by norm_num)
      _ ≤ _ := by norm_num at wl ⊢; linarith
  have t2' : |atan2 xi r' - (atan2 xi r + 2 * Real.pi * k2)| ≤ 2.9406e-6 * w := by
    refine t2.trans ?_
    have : 0 ≤ w := by rw [hw]; positivity
    calc Real.pi / 2 * (1.872e-6 * w) ≤ 1.5708 * (1.872e-6 * w) :=
          mul_le_mul_of_nonneg_right (by norm_num at hpi ⊢; linarith) (by positivity)
      _ ≤ _ := by norm_num at wl ⊢; linarith
  have eb : |b - (pa - atan2 xi r + 2 * Real.pi * ((m - k4 - k2 : ℤ) : ℝ))| ≤ ε + 2.9406e-6 * w + 1.272e-6 := by
    push_cast
    clear t1 t1' t2 hb ea epb d1 d2 w1 wu hw t3 b3 b4 hrange r0 r1 hs hc hr hh
    generalize R (pa - at2 xi r') = u at *
    generalize at2 xi r' = l at *
    generalize atan2 xi r' = l' at *
    generalize atan2 xi r = l0 at *
    rw [abs_le] at hm hsum t2' t4 ⊢
    norm_num at *
    constructor <;> linarith [hm.1, hm.2, hsum.1, hsum.2, t2'.1, t2'.2, t4.1, t4.2]
  have eaa : |a - (atan2 s c + 2 * Real.pi * ((k3 + k1 : ℤ) : ℝ))| ≤ ε + 1.00092e-5 * w := by
    push_cast
    rw [ea]
    clear t1 t2' t2 hb ea epb d1 d2 w1 wu hw t4 b3 b4 hrange r0 r1 hs hc hr hh hm hsum eb
    generalize at2 s' c' = l at *
    generalize atan2 s' c' = l' at *
    generalize atan2 s c = l0 at *
    rw [abs_le] at t1' t3 ⊢
    constructor <;> linarith [t1'.1, t1'.2, t3.1, t3.2]
  have ed : direction pb (atan2 s c) =
      direction (pa - atan2 xi r + 2 * Real.pi * ((m - k4 - k2 : ℤ) : ℝ)) (atan2 s c + 2 * Real.pi * ((k3 + k1 : ℤ) : ℝ)) := by
    rw [epb, direction_dranrm, direction_period, direction_eq, direction_eq]
    rw [show atan2 s c + 2 * Real.pi * ((k3 + k1 : ℤ) : ℝ) = atan2 s c + ((k3 + k1 : ℤ) : ℝ) * (2 * Real.pi) by ring,
      Real.cos_add_int_mul_two_pi, Real.sin_add_int_mul_two_pi]
  rw [ed]
  have hch := (chord_le b _ a _).trans (add_le_add eb eaa)
  have hang := angle_of_near (by rw [len_direction]; norm_num) hch (by norm_num at hε wu wl ⊢; linarith)
  refine hang.trans ?_
  have e3 : (2.37e-5 : ℝ) / (q * cd) = 2.37e-5 * w := by rw [hw]; ring
  rw [e3]
  have w0 : 0 ≤ w := by rw [hw]; positivity
  calc Real.pi / 2 * (1.002 * (ε + 2.9406e-6 * w + 1.272e-6 + (ε + 1.00092e-5 * w)))
      ≤ 1.5708 * (1.002 * (ε + 2.9406e-6 * w + 1.272e-6 + (ε + 1.00092e-5 * w))) :=
        mul_le_mul_of_nonneg_right (by norm_num at hpi ⊢; linarith) (by positivity)
    _ ≤ _ := by norm_num at wl ⊢; linarith

set_option maxHeartbeats 1000000 in
/-- C133: in single precision `tps2c` finds the two tangent points to within 2.37e-5 rad divided by the root `r` that decides whether
    there is a solution and by the cosine of the declination of the star (plus 3.15 times the error of the library's arctangent), for
    stars within 45 degrees of the tangent point in each coordinate. -/
theorem C133_tps2c (R : Rounding binary32) {sn cs : ℝ → ℝ} {at2 : ℝ → ℝ → ℝ} {ε : ℝ} (hε : ε ≤ 0.01)
    (hs : ∀ x, |sn x - Real.sin x| ≤ 1.2e-7) (hc : ∀ x, |cs x - Real.cos x| ≤ 1.2e-7) (ha : Atan2Near at2 ε) {xi eta : ℝ}
    (hx : |xi| ≤ 1) (he : |eta| ≤ 1) {p : Spherical} (hpa : |p.a| ≤ 6.3) (hp : |p.b| < Real.pi / 2) {r : ℝ}
    (hr : r ^ 2 = Real.cos p.b ^ 2 * (1 + eta ^ 2) - Real.sin p.b ^ 2 * xi ^ 2) (h0 : 1e-2 ≤ r) :
    ∃ s1 s2 t1 t2, (Sla.dtps2c xi eta p).2 = some (s1, s2) ∧ (Fp.tps2c R sn cs at2 xi eta p).2 = some (t1, t2) ∧
      angleBetween (direction t1.a t1.b) (direction s1.a s1.b) ≤ 3.15 * ε + 2.37e-5 / (r * Real.cos p.b) ∧
      angleBetween (direction t2.a t2.b) (direction s2.a s2.b) ≤ 3.15 * ε + 2.37e-5 / (r * Real.cos p.b) ∧
      (0 ≤ t1.a ∧ t1.a ≤ 13176795 / 2 ^ 21) ∧ (0 ≤ t2.a ∧ t2.a ≤ 13176795 / 2 ^ 21) ∧
      (1.2e-6 ≤ |(|Real.sin p.b| * Real.sqrt (1 + xi ^ 2 + eta ^ 2)) - 1| →
        (Fp.tps2c R sn cs at2 xi eta p).1 = (Sla.dtps2c xi eta p).1) := by
  have hcd : 0 < Real.cos p.b := Real.cos_pos_of_mem_Ioo ⟨by linarith [(abs_lt.1 hp).1], (abs_lt.1 hp).2⟩
  have hcd1 := Real.cos_le_one p.b
  have q := Real.sin_sq_add_cos_sq p.b
  have r0 : 0 < r := lt_of_lt_of_le (by norm_num) h0
  have hrr : r * r = Real.cos p.b * Real.cos p.b * (1 + eta * eta) - Real.sin p.b * Real.sin p.b * (xi * xi) := by
    linear_combination hr
  have hsq : Real.sqrt (Real.cos p.b * Real.cos p.b * (1 + eta * eta) - Real.sin p.b * Real.sin p.b * (xi * xi)) = r := by
    rw [← hrr, Real.sqrt_mul_self r0.le]
  have hge : Real.cos p.b * Real.cos p.b * (1 + eta * eta) - Real.sin p.b * Real.sin p.b * (xi * xi) ≥ 0 := by
    rw [← hrr]; positivity
  obtain ⟨n1, n2, n3⟩ := tps2c_near R.single (r := r) hx he ⟨hs p.b, Real.abs_sin_le_one _⟩ ⟨hc p.b, Real.abs_cos_le_one _⟩ rfl rfl rfl
  obtain ⟨m0, m1, m2, m3, m4, m5⟩ := n3 hrr (le_trans (by norm_num) h0)
  clear n3 n1
  have hF : Sla.dtps2c xi eta p = _ := dtps2c_eq hcd xi eta
  rw [if_pos hge] at hF
  dsimp only at hF
  rw [hsq] at hF
  rw [show (1 + xi ^ 2 + eta ^ 2 : ℝ) = 1 + xi * xi + eta * eta by ring] at hF ⊢
  set f := Real.sqrt (1 + xi * xi + eta * eta) with hf
  have f0 : 0 ≤ f := Real.sqrt_nonneg _
  have hff : f * f = 1 + xi * xi + eta * eta := by
    rw [hf, Real.mul_self_sqrt (by nlinarith [mul_self_nonneg xi, mul_self_nonneg eta])]
  have yy : eta * eta ≤ 1 := by nlinarith [abs_mul_abs_self eta, abs_nonneg eta]
  have hqc : r ≤ 1.4143 * Real.cos p.b := by
    refine (le_abs_self r).trans (abs_le_of_sq_le_sq ?_ (by positivity))
    rw [hr]
    have h1 : 0 ≤ Real.sin p.b ^ 2 * xi ^ 2 := by positivity
    have h2 : Real.cos p.b ^ 2 * eta ^ 2 ≤ Real.cos p.b ^ 2 * 1 := mul_le_mul_of_nonneg_left (by rw [sq]; exact yy) (sq_nonneg _)
    have h3 := sq_nonneg (Real.cos p.b)
    rw [mul_pow]
    norm_num at h2 ⊢; linarith
  have hh : Real.cos p.b ^ 2 ≤ r * r + xi * xi := by
    have : r * r + xi * xi = Real.cos p.b ^ 2 * (1 + xi ^ 2 + eta ^ 2) := by rw [hrr]; linear_combination (xi ^ 2) * (-q)
    rw [this]
    have : 0 ≤ Real.cos p.b ^ 2 * (xi ^ 2 + eta ^ 2) := by positivity
    nlinarith
  have hsc : 1 ≤ (Real.sin p.b * f * eta + r) * (Real.sin p.b * f * eta + r) + (Real.sin p.b * f - eta * r) * (Real.sin p.b * f - eta * r) := by
    have : (Real.sin p.b * f * eta + r) * (Real.sin p.b * f * eta + r) + (Real.sin p.b * f - eta * r) * (Real.sin p.b * f - eta * r) =
        (1 + eta ^ 2) ^ 2 := by
      linear_combination (Real.sin p.b ^ 2 * (1 + eta ^ 2)) * hff + (1 + eta ^ 2) * hrr + (1 + eta ^ 2) ^ 2 * q
    rw [this]; nlinarith [sq_nonneg eta]
  have hsc2 : 1 ≤ (Real.sin p.b * f * eta + -r) * (Real.sin p.b * f * eta + -r) + (Real.sin p.b * f - eta * -r) * (Real.sin p.b * f - eta * -r) := by
    have : (Real.sin p.b * f * eta + -r) * (Real.sin p.b * f * eta + -r) + (Real.sin p.b * f - eta * -r) * (Real.sin p.b * f - eta * -r) =
        (1 + eta ^ 2) ^ 2 := by
      linear_combination (Real.sin p.b ^ 2 * (1 + eta ^ 2)) * hff + (1 + eta ^ 2) * hrr + (1 + eta ^ 2) ^ 2 * q
    rw [this]; nlinarith [sq_nonneg eta]
  set r2' := R (R (R (cs p.b * cs p.b) * R (1 + R (eta * eta))) - R (R (sn p.b * sn p.b) * R (xi * xi))) with hr2
  set sf' := R (sn p.b * R (Real.sqrt (R (R (1 + R (xi * xi)) + R (eta * eta))))) with hsf
  have rne : R (Real.sqrt r2') ≠ 0 := by
    intro h
    rw [h, zero_sub, abs_neg, abs_of_pos r0, le_div_iff₀ r0] at m1
    have : 1e-2 * 1e-2 ≤ r * r := mul_le_mul h0 h0 (by norm_num) r0.le
    norm_num at m1 this; linarith
  have hE : Fp.tps2c R sn cs at2 xi eta p = (open Classical in if |sf'| < 1 then 1 else 2,
      some (⟨Fp.dranrm R (R (p.a - at2 xi (R (Real.sqrt r2')))), at2 (R (sf' - R (eta * R (Real.sqrt r2')))) (R (R (sf' * eta) + R (Real.sqrt r2')))⟩,
        ⟨Fp.dranrm R (R (p.a - at2 xi (-R (Real.sqrt r2')))), at2 (R (sf' - R (eta * -R (Real.sqrt r2')))) (R (R (sf' * eta) + -R (Real.sqrt r2')))⟩)) := by
    unfold Fp.tps2c
    simp only [← hr2, ← hsf]
    rw [if_pos m0.le]
    simp only [rne, and_false, if_false]
  have h1 := solution_near R hε ha (xi := xi) hpa h0 hcd hcd1 hqc m1 hh m2 m3 hsc _ _ rfl rfl rfl
  have h2 := solution_near R hε ha (xi := xi) (r := -r) (r' := -R (Real.sqrt r2')) hpa h0 hcd hcd1 hqc (by rw [neg_sub_neg, abs_sub_comm]; exact m1)
    (by rw [neg_mul_neg]; exact hh) m4 m5 hsc2 _ _ rfl rfl rfl
  rw [hE, hF]
  refine ⟨_, _, _, _, rfl, rfl, h1.1, h2.1, h1.2, h2.2, fun hn => ?_⟩
  dsimp only
  have e1 : |Real.sin p.b * f| = |Real.sin p.b| * f := by rw [abs_mul, abs_of_nonneg f0]
  have n2' : |(|sf'| - |Real.sin p.b * f|)| ≤ 9.72e-7 := (abs_abs_sub_abs_le_abs_sub _ _).trans n2
  rw [← e1] at hn
  generalize |Real.sin p.b * f| = A at *
  generalize |sf'| = B at *
  rw [abs_le] at n2'
  rw [le_abs] at hn
  norm_num at n2' hn
  by_cases hA : A < 1
  · rw [if_pos hA, if_pos]
    rcases hn with hn | hn <;> linarith [n2'.1, n2'.2]
  · rw [if_neg hA, if_neg]
    rw [not_lt] at hA ⊢
    rcases hn with hn | hn <;> linarith [n2'.1, n2'.2]

/-- C133: no solution is reported where there is none, except within 1.68e-6 of the limit. -/
theorem C133_none (R : Rounding binary32) {sn cs : ℝ → ℝ} (at2 : ℝ → ℝ → ℝ)
    (hs : ∀ x, |sn x - Real.sin x| ≤ 1.2e-7) (hc : ∀ x, |cs x - Real.cos x| ≤ 1.2e-7) {xi eta : ℝ} (hx : |xi| ≤ 1) (he : |eta| ≤ 1) {p : Spherical}
    (h : Real.cos p.b ^ 2 * (1 + eta ^ 2) - Real.sin p.b ^ 2 * xi ^ 2 ≤ -1.68e-6) :
    Fp.tps2c R sn cs at2 xi eta p = (0, none) ∧ Sla.dtps2c xi eta p = (0, none) := by
  obtain ⟨n1, -, -⟩ := tps2c_near R.single (r := 1) hx he ⟨hs p.b, Real.abs_sin_le_one _⟩ ⟨hc p.b, Real.abs_cos_le_one _⟩ rfl rfl rfl
  have e : Real.cos p.b * Real.cos p.b * (1 + eta * eta) - Real.sin p.b * Real.sin p.b * (xi * xi) =
      Real.cos p.b ^ 2 * (1 + eta ^ 2) - Real.sin p.b ^ 2 * xi ^ 2 := by ring
  rw [e] at n1
  constructor
  · unfold Fp.tps2c
    dsimp only
    rw [if_neg]
    rw [ge_iff_le, not_le]
    have := (abs_le.1 n1).2
    norm_num at this h ⊢; linarith
  · unfold Sla.dtps2c
    dsimp only
    rw [if_neg]
    rw [e, ge_iff_le, not_le]
    norm_num at h ⊢; linarith

/-- A star on the equator half a radian east and a quarter north of the tangent point meets the hypotheses. -/
example : ∃ r : ℝ, r ^ 2 = Real.cos 0 ^ 2 * (1 + (0.25 : ℝ) ^ 2) - Real.sin 0 ^ 2 * 0.5 ^ 2 ∧ 1e-2 ≤ r := by
  refine ⟨Real.sqrt 1.0625, ?_, ?_⟩
  · rw [Real.sq_sqrt (by norm_num)]; norm_num
  · exact Real.le_sqrt_of_sq_le (by norm_num)

/-- A star at 60 degrees of declination one radian east of the tangent point: no tangent point exists. -/
example : Real.cos (Real.pi / 3) ^ 2 * (1 + (0 : ℝ) ^ 2) - Real.sin (Real.pi / 3) ^ 2 * 1 ^ 2 ≤ -1.68e-6 := by
  rw [Real.cos_pi_div_three, Real.sin_pi_div_three, div_pow (Real.sqrt 3), Real.sq_sqrt (by norm_num)]; norm_num

end Sla.Props
