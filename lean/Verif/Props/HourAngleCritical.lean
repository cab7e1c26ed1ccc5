import Verif.Props.HourAngle

/-
C103 hour angle for a given azimuth or parallactic angle, at and near the critical values.
-/
namespace Sla.Props
open Sla Sla.Spec Real Matrix

private theorem csign_cases (x : ℝ) : (0 ≤ x ∧ csign 1e-12 x = 1e-12) ∨ (x < 0 ∧ csign 1e-12 x = -1e-12) := by
  unfold csign
  rcases le_or_gt 0 x with h | h
  · exact Or.inl ⟨h, by rw [if_pos h, abs_of_pos (by norm_num)]⟩
  · exact Or.inr ⟨h, by rw [if_neg (not_le.2 h), abs_of_pos (by norm_num)]⟩

private theorem reduced {x : ℝ} (h : |x| ≤ π / 2) : drange x = x := (C15_drange_laws x).1 (by linarith [pi_pos])

private theorem adjustLat_near {lat : ℝ} (h : |lat| ≤ π / 2) :
    |adjustLat lat - lat| ≤ 2e-12 ∧ 1e-12 ≤ |adjustLat lat| ∧ |adjustLat lat| ≤ π / 2 - 1e-12 := by
  have hpi := pi_gt_three
  unfold adjustLat
  rw [reduced h]
  have hc := csign_cases lat
  norm_num at hc ⊢
  split_ifs with h1 h2
  · rw [abs_lt] at h1
    rcases hc with ⟨s, e⟩ | ⟨s, e⟩ <;> rw [e]
    · rw [abs_of_nonneg s] at h h1
      rw [abs_of_nonneg (show (0 : ℝ) ≤ lat - 1 / 1000000000000 by linarith)]
      refine ⟨by rw [abs_le]; constructor <;> linarith, by linarith, by linarith⟩
    · rw [abs_of_neg s] at h h1
      rw [abs_of_neg (show lat - -(1 / 1000000000000) < 0 by linarith)]
      refine ⟨by rw [abs_le]; constructor <;> linarith, by linarith, by linarith⟩
  · rw [abs_lt] at h2
    rw [abs_of_pos (show (0 : ℝ) < 1 / 1000000000000 by norm_num)]
    refine ⟨by rw [abs_le]; constructor <;> linarith, by linarith, by linarith⟩
  · refine ⟨by norm_num, by linarith, ?_⟩
    rw [abs_of_nonpos (by linarith)] at h1
    linarith

private theorem adjustAz_near (a : ℝ) :
    |adjustAz a - drange a| ≤ 2e-12 ∧ 1e-12 ≤ |adjustAz a| ∧ |adjustAz a| ≤ π - 1e-12 := by
  have hpi := pi_gt_three
  have h : |drange a| ≤ π := abs_le.2 ⟨(C15_drange a).1, (C15_drange a).2.1⟩
  unfold adjustAz
  generalize drange a = x at *
  have hc := csign_cases x
  norm_num at hc ⊢
  split_ifs with h1 h2
  · rw [abs_lt] at h1
    rcases hc with ⟨s, e⟩ | ⟨s, e⟩ <;> rw [e]
    · rw [abs_of_nonneg s] at h h1
      rw [abs_of_nonneg (show (0 : ℝ) ≤ x - 1 / 1000000000000 by linarith)]
      refine ⟨by rw [abs_le]; constructor <;> linarith, by linarith, by linarith⟩
    · rw [abs_of_neg s] at h h1
      rw [abs_of_neg (show x - -(1 / 1000000000000) < 0 by linarith)]
      refine ⟨by rw [abs_le]; constructor <;> linarith, by linarith, by linarith⟩
  · rw [abs_lt] at h2
    rw [abs_of_pos (show (0 : ℝ) < 1 / 1000000000000 by norm_num)]
    refine ⟨by rw [abs_le]; constructor <;> linarith, by linarith, by linarith⟩
  · refine ⟨by norm_num, by linarith, ?_⟩
    rw [abs_of_nonpos (by linarith)] at h1
    linarith

private theorem stepped {x : ℝ} (h : |x| ≤ π / 2) :
    |x - csign 1e-12 x - x| ≤ 2e-12 ∧ |x - csign 1e-12 x| ≤ π / 2 - 1e-12 := by
  have hpi := pi_gt_three
  have hc := csign_cases x
  norm_num at hc ⊢
  rw [abs_le] at h
  rcases hc with ⟨s, e⟩ | ⟨s, e⟩ <;> rw [e] <;> refine ⟨by norm_num, ?_⟩ <;> rw [abs_le] <;> constructor <;> linarith

private theorem adjustDecA_near {dec : ℝ} (lat : ℝ) (h : |dec| ≤ π / 2) :
    |adjustDecA dec lat - dec| ≤ 2e-12 ∧ |adjustDecA dec lat| ≤ π / 2 - 1e-12 := by
  have hpi := pi_gt_three
  unfold adjustDecA
  rw [reduced h]
  simp only
  split_ifs with h1 h2
  · exact stepped h
  · norm_num at h2 ⊢
    rw [abs_lt] at h2
    refine ⟨by rw [abs_le]; constructor <;> linarith, by linarith⟩
  · rw [not_or] at h1
    have h3 := h1.2
    norm_num at h3 ⊢
    rw [abs_of_nonpos (by linarith)] at h3
    linarith

private theorem adjustDecQ_near {dec : ℝ} (lat : ℝ) (h : |dec| ≤ π / 2) :
    |adjustDecQ dec lat - dec| ≤ 2e-12 ∧ |adjustDecQ dec lat| ≤ π / 2 - 1e-12 := by
  unfold adjustDecQ
  rw [reduced h]
  simp only
  split_ifs with h1
  · exact stepped h
  · rw [not_or] at h1
    have h3 := h1.2
    norm_num at h3 ⊢
    rw [abs_of_nonpos (by linarith)] at h3
    linarith

private theorem sin_ne {x : ℝ} (h1 : 1e-12 ≤ |x|) (h2 : |x| ≤ π - 1e-12) : sin x ≠ 0 := by
  norm_num at h1 h2
  have := abs_le.1 h2
  intro h0
  have := (sin_eq_zero_iff_of_lt_of_lt (x := x) (by linarith) (by linarith)).1 h0
  rw [this, abs_zero] at h1; norm_num at h1

/-- Not at the zenith or nadir. -/
private theorem off_axis {h d p : ℝ} (he : |(de2h ⟨h, d⟩ p).el| ≠ π / 2) : 0 < hx h d p * hx h d p + hy h d * hy h d := by
  rcases (h_rsq h d p).lt_or_eq with h0 | h0
  · exact h0
  exfalso
  apply he
  rw [de2h_eq]
  have hu := h_unit h d p
  simp only
  rw [← h0, sqrt_zero]
  have hz : hz h d p * hz h d p = 1 := by linarith
  rcases mul_self_eq_one_iff.1 hz with e | e <;> rw [e] <;> unfold atan2
  · rw [show (⟨0, 1⟩ : ℂ) = Complex.I from rfl, Complex.arg_I, abs_of_pos (by positivity)]
  · rw [show (⟨0, -1⟩ : ℂ) = -Complex.I from Complex.ext (by simp) (by simp), Complex.arg_neg_I, abs_neg, abs_of_pos (by positivity)]

/-- C103: for every latitude, declination and azimuth, the solutions reported as valid by `pda2h` are exactly the hour angles at
    which a star of nearly the given declination has, at nearly the given latitude, nearly the given azimuth: each is changed by at
    most 2e-12 rad, and is then clear of the poles, the equator and the meridian.  Only an hour angle that takes the star exactly to
    the zenith or nadir, where there is no azimuth, is left out. -/
theorem C103_pda2h {lat dec : ℝ} (azimuth : ℝ) (hl : |lat| ≤ π / 2) (hd : |dec| ≤ π / 2) :
    ∃ lat' dec' az', |lat' - lat| ≤ 2e-12 ∧ |dec' - dec| ≤ 2e-12 ∧ (∃ a, SameAngle a azimuth ∧ |az' - a| ≤ 2e-12) ∧
      1e-12 ≤ |lat'| ∧ |lat'| ≤ π / 2 - 1e-12 ∧ |dec'| ≤ π / 2 - 1e-12 ∧ 1e-12 ≤ |az'| ∧ |az'| ≤ π - 1e-12 ∧
      ∀ h, |(de2h ⟨h, dec'⟩ lat').el| ≠ π / 2 → (SameAngle (de2h ⟨h, dec'⟩ lat').az az' ↔
        ∃ h1 h2, (pda2h lat dec azimuth).ha = some (h1, h2) ∧
          (((pda2h lat dec azimuth).valid1 ∧ SameAngle h h1) ∨ ((pda2h lat dec azimuth).valid2 ∧ SameAngle h h2))) := by
  obtain ⟨l1, l2, l3⟩ := adjustLat_near hl
  obtain ⟨d1, d2⟩ := adjustDecA_near lat hd
  obtain ⟨a1, a2, a3⟩ := adjustAz_near azimuth
  refine ⟨_, _, _, l1, d1, ⟨_, sameAngle_drange azimuth, a1⟩, l2, l3, d2, a2, a3, fun h he => ?_⟩
  refine pda2h_core (cos_pos_of_abs (by norm_num at d2; linarith)) (sin_ne l2 (by norm_num at l3 ⊢; linarith [pi_pos])) ?_
    (sin_ne a2 a3) h (off_axis he) (pda2h_eq _ _ _)
  have := abs_le.1 a3
  norm_num at this
  constructor <;> linarith

/-- C103: the same for the parallactic angle and `pdq2h`. -/
theorem C103_pdq2h {lat dec : ℝ} (q : ℝ) (hl : |lat| ≤ π / 2) (hd : |dec| ≤ π / 2) :
    ∃ lat' dec' q', |lat' - lat| ≤ 2e-12 ∧ |dec' - dec| ≤ 2e-12 ∧ (∃ a, SameAngle a q ∧ |q' - a| ≤ 2e-12) ∧
      1e-12 ≤ |lat'| ∧ |lat'| ≤ π / 2 - 1e-12 ∧ |dec'| ≤ π / 2 - 1e-12 ∧ 1e-12 ≤ |q'| ∧ |q'| ≤ π - 1e-12 ∧
      ∀ h, |(de2h ⟨h, dec'⟩ lat').el| ≠ π / 2 → (SameAngle (pa ⟨h, dec'⟩ lat') q' ↔
        ∃ h1 h2, (pdq2h lat dec q).ha = some (h1, h2) ∧
          (((pdq2h lat dec q).valid1 ∧ SameAngle h h1) ∨ ((pdq2h lat dec q).valid2 ∧ SameAngle h h2))) := by
  obtain ⟨l1, l2, l3⟩ := adjustLat_near hl
  obtain ⟨d1, d2⟩ := adjustDecQ_near lat hd
  obtain ⟨a1, a2, a3⟩ := adjustAz_near q
  refine ⟨_, _, _, l1, d1, ⟨_, sameAngle_drange q, a1⟩, l2, l3, d2, a2, a3, fun h he => ?_⟩
  refine pdq2h_core (cos_pos_of_abs (by norm_num at l3; linarith)) (sin_ne l2 (by norm_num at l3 ⊢; linarith [pi_pos])) ?_
    (sin_ne a2 a3) h (off_axis he) (pdq2h_eq _ _ _)
  have := abs_le.1 a3
  norm_num at this
  constructor <;> linarith

/-- C103: seen from the north pole every star has parallactic angle zero, and `pdq2h`, asked for that angle, reports a solution. -/
theorem C103_pole {dec : ℝ} (hd : |dec| < π / 2) :
    (∀ h, pa ⟨h, dec⟩ (π / 2) = 0) ∧ ((pdq2h (π / 2) dec 0).valid1 ∨ (pdq2h (π / 2) dec 0).valid2) := by
  have hpi := pi_gt_three
  have hpl := pi_lt_four
  constructor
  · intro h
    have hc : 0 < cos dec := cos_pos_of_abs hd
    unfold pa
    dsimp only
    rw [cos_pi_div_two, sin_pi_div_two, if_neg]
    · simp only [zero_mul, one_mul, sub_zero]
      exact atan2_zero_of_nonneg hc.le
    · rintro ⟨-, e⟩
      simp only [zero_mul, one_mul, sub_zero] at e
      exact hc.ne' e
  have el : adjustLat (π / 2) = π / 2 - 1e-12 := by
    unfold adjustLat
    rw [reduced (by rw [abs_of_pos (by positivity)])]
    simp only
    rw [abs_of_pos (show (0 : ℝ) < π / 2 by positivity), sub_self, abs_zero, if_pos (by norm_num)]
    unfold csign
    rw [if_pos (by positivity), abs_of_pos (by norm_num)]
  have ea : adjustAz 0 = 1e-12 := by
    unfold adjustAz
    rw [(C15_drange_laws 0).1 (by rw [abs_zero]; exact pi_pos)]
    simp only
    rw [abs_zero, if_neg, if_pos (by norm_num)]
    rw [zero_sub, abs_neg, abs_of_pos pi_pos]; norm_num; linarith
  obtain ⟨-, d2⟩ := adjustDecQ_near (π / 2) hd.le
  rw [pdq2h_eq, el, ea]
  generalize adjustDecQ dec (π / 2) = d at *
  obtain ⟨τ, hτ⟩ : ∃ τ : ℝ, τ = 1e-12 := ⟨_, rfl⟩
  rw [← hτ]
  have t0 : 0 < τ := by rw [hτ]; norm_num
  have t1 : τ < 1 := by rw [hτ]; norm_num
  have hs : 0 < sin τ := sin_pos_of_pos_of_lt_pi t0 (by linarith)
  have hc : 0 < cos τ := cos_pos_of_abs (by rw [abs_of_pos t0]; linarith)
  have hcd : 0 < cos d := cos_pos_of_abs (by norm_num at d2; linarith)
  unfold solvePa
  simp only [sin_pi_div_two_sub, cos_pi_div_two_sub]
  have hQ : cos τ ≤ sqrt (cos τ * cos τ + sin τ * sin d * (sin τ * sin d)) := by
    apply le_sqrt_of_sq_le
    nlinarith [mul_self_nonneg (sin τ * sin d)]
  generalize sqrt (cos τ * cos τ + sin τ * sin d * (sin τ * sin d)) = Q at *
  have hqt : 0 ≤ cos τ * sin τ * cos d := by positivity
  have hq : |cos τ * sin τ * cos d| ≤ sin τ * Q := by
    rw [abs_of_nonneg hqt]
    have h1 : cos τ * cos d ≤ Q := by nlinarith [cos_le_one d]
    nlinarith
  rw [if_pos hq]
  simp only
  have p0 : 0 ≤ arcsin (cos τ * sin τ * cos d / (sin τ * Q)) :=
    arcsin_nonneg.2 (div_nonneg hqt (mul_nonneg hs.le (hc.le.trans hQ)))
  have p1 := arcsin_le_pi_div_two (cos τ * sin τ * cos d / (sin τ * Q))
  generalize arcsin (cos τ * sin τ * cos d / (sin τ * Q)) = p at *
  have hr : |atan2 (sin τ * sin d) (cos τ)| < π / 2 := by
    unfold atan2
    exact Complex.abs_arg_lt_pi_div_two_iff.2 (Or.inl hc)
  have hsign : (0 ≤ sin d → 0 ≤ atan2 (sin τ * sin d) (cos τ)) ∧ (sin d < 0 → atan2 (sin τ * sin d) (cos τ) < 0) := by
    unfold atan2
    exact ⟨fun h => Complex.arg_nonneg_iff.2 (mul_nonneg hs.le h), fun h => Complex.arg_neg_iff.2 (mul_neg_of_pos_of_neg hs h)⟩
  generalize atan2 (sin τ * sin d) (cos τ) = t at *
  rw [abs_lt] at hr
  rcases le_or_gt 0 (sin d) with h | h
  · right
    have ht := hsign.1 h
    have e : 0 ≤ drange (-p - (t + π)) := by
      rcases (add_nonneg p0 ht).eq_or_lt with h0 | h0
      · rw [show -p - (t + π) = -π by linarith]
        obtain ⟨b1, b2, ⟨k, hk⟩, -, b5⟩ := C15_drange (-π)
        have b6 := b5 (by linarith)
        rw [hk] at b6 ⊢
        have : (0 : ℝ) < k := by by_contra hn; nlinarith
        have : (1 : ℝ) ≤ k := by exact_mod_cast (by exact_mod_cast this : (0 : ℤ) < k)
        nlinarith
      · have := ((C15_drange_laws (π - p - t)).2 (by
          rw [(C15_drange_laws (π - p - t)).1 (by rw [abs_lt]; constructor <;> linarith)]
          rw [abs_lt]; constructor <;> linarith)).2 (-1)
        rw [show -p - (t + π) = π - p - t + 2 * π * ((-1 : ℤ) : ℝ) by push_cast; ring, this,
          (C15_drange_laws (π - p - t)).1 (by rw [abs_lt]; constructor <;> linarith)]
        linarith
    exact mul_nonneg e t0.le
  · left
    have ht := hsign.2 h
    rw [(C15_drange_laws (p - t)).1 (by rw [abs_lt]; constructor <;> linarith)]
    exact mul_nonneg (by linarith) t0.le

/-- A star on the equator seen from the equator: the most critical case. -/
example : |(0 : ℝ)| ≤ π / 2 ∧ |(0 : ℝ)| < π / 2 := by rw [abs_zero]; constructor <;> positivity

/-- The pole itself is among the latitudes covered. -/
example (q : ℝ) : ∃ lat', |lat' - π / 2| ≤ 2e-12 ∧ |lat'| ≤ π / 2 - 1e-12 := by
  obtain ⟨l, -, -, h1, -, -, -, h2, -⟩ := C103_pdq2h (lat := π / 2) (dec := π / 2) q (by rw [abs_of_pos (by positivity)])
    (by rw [abs_of_pos (by positivity)])
  exact ⟨l, h1, h2⟩

end Sla.Props
