import Verif.Props.Horizon
import Verif.Props.Angles

/-
C33 hour angle for a given azimuth (pda2h) or parallactic angle (pdq2h).
-/
namespace Sla.Props
open Sla Sla.Spec Real Matrix

/-- Two angles are the same up to whole turns. -/
def SameAngle (a b : ℝ) : Prop := ∃ k : ℤ, a = b + 2 * π * k

theorem SameAngle.sin {a b : ℝ} (h : SameAngle a b) : sin a = sin b := by
  obtain ⟨k, rfl⟩ := h
  rw [show b + 2 * π * k = b + k * (2 * π) by ring, sin_add_int_mul_two_pi]

theorem SameAngle.cos {a b : ℝ} (h : SameAngle a b) : cos a = cos b := by
  obtain ⟨k, rfl⟩ := h
  rw [show b + 2 * π * k = b + k * (2 * π) by ring, cos_add_int_mul_two_pi]

theorem SameAngle.symm {a b : ℝ} (h : SameAngle a b) : SameAngle b a := by
  obtain ⟨k, rfl⟩ := h
  exact ⟨-k, by push_cast; ring⟩

theorem SameAngle.trans {a b c : ℝ} (h : SameAngle a b) (h' : SameAngle b c) : SameAngle a c := by
  obtain ⟨k, rfl⟩ := h
  obtain ⟨m, rfl⟩ := h'
  exact ⟨k + m, by push_cast; ring⟩

theorem sameAngle_drange (a : ℝ) : SameAngle (drange a) a := (C15_drange a).2.2.1

theorem sameAngle_iff {a b : ℝ} : SameAngle a b ↔ Real.cos a = Real.cos b ∧ Real.sin a = Real.sin b := by
  constructor
  · exact fun h => ⟨h.cos, h.sin⟩
  · rintro ⟨hc, hs⟩
    have : Real.cos (a - b) = 1 := by
      rw [cos_sub, hc, hs]; linear_combination sin_sq_add_cos_sq b
    obtain ⟨k, hk⟩ := (cos_eq_one_iff _).1 this
    exact ⟨k, by linarith⟩

/-- The solutions of `κ Q sin (h + t) = q`. -/
theorem solve_sine {m q t : ℝ} (hm : 0 < m) (h : ℝ) :
    m * sin (h + t) = q ↔ |q| ≤ m ∧
      (SameAngle h (drange (arcsin (q / m) - t)) ∨ SameAngle h (drange (-arcsin (q / m) - (t + π)))) := by
  constructor
  · intro e
    have hq : |q| ≤ m := by
      rw [← e, abs_mul, abs_of_pos hm]
      have := abs_sin_le_one (h + t)
      nlinarith
    refine ⟨hq, ?_⟩
    have hs : sin (h + t) = sin (arcsin (q / m)) := by
      have := abs_le.1 hq
      rw [sin_arcsin (by rw [le_div_iff₀ hm]; linarith) (by rw [div_le_iff₀ hm]; linarith), eq_div_iff hm.ne',
        mul_comm, e]
    obtain ⟨k, hk | hk⟩ := sin_eq_sin_iff.1 hs
    · left
      exact SameAngle.trans ⟨-k, by push_cast; linear_combination -hk⟩ (sameAngle_drange _).symm
    · right
      exact SameAngle.trans ⟨k + 1, by push_cast; linear_combination hk⟩ (sameAngle_drange _).symm
  · rintro ⟨hq, hh⟩
    have hs : sin (h + t) = sin (arcsin (q / m)) := by
      rcases hh with hh | hh
      · obtain ⟨k, hk⟩ := hh.trans (sameAngle_drange _)
        exact sin_eq_sin_iff.2 ⟨-k, Or.inl (by push_cast; linear_combination -hk)⟩
      · obtain ⟨k, hk⟩ := hh.trans (sameAngle_drange _)
        exact sin_eq_sin_iff.2 ⟨k - 1, Or.inr (by push_cast; linear_combination hk)⟩
    have := abs_le.1 hq
    rw [hs, sin_arcsin (by rw [le_div_iff₀ hm]; linarith) (by rw [div_le_iff₀ hm]; linarith), mul_div_cancel₀ _ hm.ne']

/-- For angles in `[-π, π]` with a non-zero sine, the sign of the angle is the sign of the sine. -/
theorem sign_of_sin {a : ℝ} (h1 : -π ≤ a) (h2 : a ≤ π) (h : sin a ≠ 0) : (0 < a ↔ 0 < sin a) ∧ a ≠ 0 := by
  have ha : a ≠ 0 := fun h0 => h (by rw [h0, sin_zero])
  have hp : a ≠ π := fun h0 => h (by rw [h0, sin_pi])
  have hm : a ≠ -π := fun h0 => h (by rw [h0, sin_neg, sin_pi, neg_zero])
  refine ⟨⟨fun h => sin_pos_of_pos_of_lt_pi h (lt_of_le_of_ne h2 hp), fun hs => ?_⟩, ha⟩
  by_contra hn
  have := sin_neg_of_neg_of_neg_pi_lt (lt_of_le_of_ne (not_lt.1 hn) ha) (lt_of_le_of_ne h1 hm.symm)
  linarith

theorem sign_mul_of_sin {a b : ℝ} (h1 : -π ≤ a) (h2 : a ≤ π) (h : sin a ≠ 0) (h1' : -π ≤ b) (h2' : b ≤ π)
    (h' : sin b ≠ 0) : (a * b ≤ 0 ↔ sin a * sin b < 0) ∧ (0 ≤ a * b ↔ 0 < sin a * sin b) := by
  obtain ⟨ia, na⟩ := sign_of_sin h1 h2 h
  obtain ⟨ib, nb⟩ := sign_of_sin h1' h2' h'
  rcases lt_or_gt_of_ne na with sa | sa <;> rcases lt_or_gt_of_ne nb with sb | sb
  · have ta : sin a < 0 := lt_of_le_of_ne (not_lt.1 fun t => by linarith [ia.2 t]) h
    have tb : sin b < 0 := lt_of_le_of_ne (not_lt.1 fun t => by linarith [ib.2 t]) h'
    have := mul_pos_of_neg_of_neg sa sb
    have := mul_pos_of_neg_of_neg ta tb
    constructor <;> constructor <;> intro _ <;> linarith
  · have ta : sin a < 0 := lt_of_le_of_ne (not_lt.1 fun t => by linarith [ia.2 t]) h
    have tb := ib.1 sb
    have := mul_neg_of_neg_of_pos sa sb
    have := mul_neg_of_neg_of_pos ta tb
    constructor <;> constructor <;> intro _ <;> linarith
  · have tb : sin b < 0 := lt_of_le_of_ne (not_lt.1 fun t => by linarith [ib.2 t]) h'
    have ta := ia.1 sa
    have := mul_neg_of_pos_of_neg sa sb
    have := mul_neg_of_pos_of_neg ta tb
    constructor <;> constructor <;> intro _ <;> linarith
  · have ta := ia.1 sa
    have tb := ib.1 sb
    have := mul_pos sa sb
    have := mul_pos ta tb
    constructor <;> constructor <;> intro _ <;> linarith

/-- `(x, y)` points in the direction `A` with `sin A ≠ 0`. -/
theorem points_iff {x y A : ℝ} (hA : sin A ≠ 0) (hr : 0 < x * x + y * y) :
    (cos (atan2 y x) = cos A ∧ sin (atan2 y x) = sin A) ↔ (x * sin A = y * cos A ∧ 0 < y * sin A) := by
  have hs := sqrt_pos.2 hr
  have pc := polar_cos y x
  have ps := polar_sin y x
  constructor
  · rintro ⟨c, s⟩
    rw [c] at pc
    rw [s] at ps
    refine ⟨by linear_combination sin A * (-pc) + cos A * ps, ?_⟩
    have := mul_pos hs (mul_self_pos.2 hA)
    rwa [← mul_assoc, ps] at this
  · rintro ⟨e, p⟩
    have h1 := sin_sq_add_cos_sq A
    -- y = l sin A, x = l cos A with l = y sin A + x cos A > 0
    set l := y * sin A + x * cos A with hl
    have hy : y = l * sin A := by rw [hl]; linear_combination -y * h1 - cos A * e
    have hx : x = l * cos A := by rw [hl]; linear_combination -x * h1 + sin A * e
    have hlp : 0 < l := by
      rw [hy, mul_assoc] at p
      exact pos_of_mul_pos_left p (mul_self_nonneg _)
    have hsq : sqrt (x * x + y * y) = l := by
      rw [show x * x + y * y = l ^ 2 by rw [hx, hy]; linear_combination l ^ 2 * h1, sqrt_sq hlp.le]
    rw [hsq] at pc ps
    constructor
    · exact mul_left_cancel₀ hlp.ne' (pc.trans hx)
    · exact mul_left_cancel₀ hlp.ne' (ps.trans hy)

/-- The critical values of latitude and declination that `pda2h` and `pdq2h` step around: within 1e-12 of a pole
    or the equator, or of the star passing through the zenith or nadir. -/
def Regular (lat dec : ℝ) : Prop :=
  1e-12 ≤ |lat| ∧ |lat| ≤ π / 2 - 1e-12 ∧ 1e-12 ≤ |dec| ∧ |dec| ≤ π / 2 - 1e-12 ∧ 1e-12 ≤ abs (|dec| - |lat|)

/-- An angle that is not within 1e-12 of a multiple of π. -/
def RegularAngle (a : ℝ) : Prop := 1e-12 ≤ |drange a| ∧ |drange a| ≤ π - 1e-12

theorem regular_lat {lat dec : ℝ} (h : Regular lat dec) : adjustLat lat = lat := by
  obtain ⟨h1, h2, -⟩ := h
  have hpi := pi_gt_three
  have e : drange lat = lat := (C15_drange_laws lat).1 (by norm_num at h2; linarith)
  unfold adjustLat
  rw [e]
  rw [if_neg, if_neg (not_lt.2 h1)]
  rw [abs_of_nonpos (by norm_num at h2; linarith)]
  norm_num at h2 ⊢; linarith

theorem regular_decA {lat dec : ℝ} (h : Regular lat dec) : adjustDecA dec lat = dec := by
  obtain ⟨-, -, h3, h4, h5⟩ := h
  have hpi := pi_gt_three
  have e : drange dec = dec := (C15_drange_laws dec).1 (by norm_num at h4; linarith)
  unfold adjustDecA
  rw [e]
  rw [if_neg, if_neg (not_lt.2 h3)]
  rw [not_or]
  refine ⟨not_lt.2 h5, ?_⟩
  rw [abs_of_nonpos (by norm_num at h4; linarith)]
  norm_num at h4 ⊢; linarith

theorem regular_decQ {lat dec : ℝ} (h : Regular lat dec) : adjustDecQ dec lat = dec := by
  obtain ⟨-, -, h3, h4, h5⟩ := h
  have hpi := pi_gt_three
  have e : drange dec = dec := (C15_drange_laws dec).1 (by norm_num at h4; linarith)
  unfold adjustDecQ
  rw [e]
  rw [if_neg]
  rw [not_or]
  refine ⟨not_lt.2 h5, ?_⟩
  rw [abs_of_nonpos (by norm_num at h4; linarith)]
  norm_num at h4 ⊢; linarith

theorem regular_angle {a : ℝ} (h : RegularAngle a) : adjustAz a = drange a ∧ sin (drange a) ≠ 0 := by
  obtain ⟨h1, h2⟩ := h
  constructor
  · unfold adjustAz
    rw [if_neg, if_neg (not_lt.2 h1)]
    rw [abs_of_nonpos (by norm_num at h2; linarith)]
    norm_num at h2 ⊢; linarith
  · norm_num at h1 h2
    rcases le_or_gt 0 (drange a) with hp | hn
    · rw [abs_of_nonneg hp] at h1 h2
      exact (sin_pos_of_pos_of_lt_pi (by linarith) (by linarith)).ne'
    · rw [abs_of_neg hn] at h1 h2
      exact (sin_neg_of_neg_of_neg_pi_lt hn (by linarith)).ne

theorem regular_off_zenith {lat dec : ℝ} (h : Regular lat dec) (ha : ℝ) :
    0 < hx ha dec lat * hx ha dec lat + hy ha dec * hy ha dec := by
  obtain ⟨h1, h2, h3, h4, h5⟩ := h
  norm_num at h1 h2 h3 h4 h5
  have hl := abs_le.1 h2
  have hd := abs_le.1 h4
  have hcd := cos_pos_of_abs (b := dec) (by linarith)
  rcases (h_rsq ha dec lat).lt_or_eq with h | h
  · exact h
  exfalso
  have hy0 : hy ha dec = 0 := by nlinarith [mul_self_nonneg (hx ha dec lat), mul_self_nonneg (hy ha dec)]
  have hx0 : hx ha dec lat = 0 := by nlinarith [mul_self_nonneg (hx ha dec lat), mul_self_nonneg (hy ha dec)]
  have hs : sin ha = 0 := by
    unfold hy at hy0
    rcases mul_eq_zero.1 hy0 with h | h
    · linarith
    · exact absurd h hcd.ne'
  have hcc : cos ha = 1 ∨ cos ha = -1 := by
    have := sin_sq_add_cos_sq ha
    rw [hs] at this
    exact or_iff_not_imp_left.2 fun hn => by
      have h0 : (cos ha - 1) * (cos ha + 1) = 0 := by linarith [sq (cos ha)]
      linarith [(mul_eq_zero.1 h0).resolve_left (sub_ne_zero.2 hn)]
  unfold hx at hx0
  rcases hcc with hc | hc
  · have e : sin (dec - lat) = 0 := by rw [sin_sub]; rw [hc] at hx0; linarith
    have := (sin_eq_zero_iff_of_lt_of_lt (x := dec - lat) (by linarith) (by linarith)).1 e
    rw [show dec = lat by linarith, sub_self, abs_zero] at h5
    norm_num at h5
  · have e : sin (dec + lat) = 0 := by rw [sin_add]; rw [hc] at hx0; linarith
    have := (sin_eq_zero_iff_of_lt_of_lt (x := dec + lat) (by linarith) (by linarith)).1 e
    rw [show dec = -lat by linarith, abs_neg, sub_self, abs_zero] at h5
    norm_num at h5

/-- The part of `pda2h` after the adjustment of its arguments (src/pda2h.cc:63-88). -/
noncomputable def solveAz (pn dn an : ℝ) : TwoHa :=
  let sin_an := Real.sin an
  let cos_an := Real.cos an
  let sinan_cospn := sin_an * Real.sin pn
  let qt := Real.sin dn * sin_an * Real.cos pn
  let qb := Real.cos dn * Real.sqrt (cos_an * cos_an + sinan_cospn * sinan_cospn)
  open Classical in
  if |qt| ≤ qb then
    let hpt := Real.arcsin (qt / qb)
    let t := atan2 sinan_cospn (-cos_an)
    let ha1 := drange (hpt - t)
    let ha2 := drange (-hpt - (t + π))
    { ha := some (ha1, ha2), valid1 := ha1 * an ≤ 0, valid2 := ha2 * an ≤ 0 }
  else { ha := none, valid1 := False, valid2 := False }

theorem pda2h_eq (lat dec azimuth : ℝ) :
    pda2h lat dec azimuth = solveAz (adjustLat lat) (adjustDecA dec lat) (adjustAz azimuth) := by
  unfold pda2h solveAz; rfl

/-- What `pda2h` reports, once the arguments have been adjusted: the hour angles at which a star not at the zenith or nadir has the
    azimuth `A`. -/
theorem pda2h_core {lat dec A : ℝ} {r : TwoHa} (hcd : 0 < cos dec) (hsp : sin lat ≠ 0) (hAr : -π ≤ A ∧ A ≤ π) (hsA : sin A ≠ 0)
    (h : ℝ) (hoz : 0 < hx h dec lat * hx h dec lat + hy h dec * hy h dec) (hr : r = solveAz lat dec A) :
    SameAngle (de2h ⟨h, dec⟩ lat).az A ↔
      ∃ h1 h2, r.ha = some (h1, h2) ∧ ((r.valid1 ∧ SameAngle h h1) ∨ (r.valid2 ∧ SameAngle h h2)) := by
  have rng : ∀ a, -π ≤ drange a ∧ drange a ≤ π := fun a => ⟨(C15_drange a).1, (C15_drange a).2.1⟩
  rw [hr, sameAngle_iff, de2h_eq]
  simp only
  rw [(wrapAz_facts _ _).1, (wrapAz_facts _ _).2.1, points_iff hsA hoz]
  unfold solveAz
  simp only
  have hQ : 0 < cos A * cos A + sin A * sin lat * (sin A * sin lat) := by
    have : 0 < sin A * sin lat * (sin A * sin lat) := mul_self_pos.2 (mul_ne_zero hsA hsp)
    nlinarith [mul_self_nonneg (cos A)]
  have pc := polar_cos (sin A * sin lat) (-cos A)
  have ps := polar_sin (sin A * sin lat) (-cos A)
  rw [neg_mul_neg] at pc ps
  have hs := sqrt_pos.2 hQ
  generalize atan2 (sin A * sin lat) (-cos A) = t at *
  generalize sqrt (cos A * cos A + sin A * sin lat * (sin A * sin lat)) = Q at *
  have hm : 0 < cos dec * Q := mul_pos hcd hs
  have heq : ∀ g, hx g dec lat * sin A = hy g dec * cos A ↔ cos dec * Q * sin (g + t) = sin dec * sin A * cos lat := by
    intro g
    rw [sin_add]
    unfold hx hy
    constructor
    · intro e
      linear_combination -e + cos dec * sin g * pc + cos dec * cos g * ps
    · intro e
      linear_combination -e + cos dec * sin g * pc + cos dec * cos g * ps
  have hcongr : ∀ g g', SameAngle g g' → hx g dec lat = hx g' dec lat ∧ hy g dec = hy g' dec := by
    intro g g' hg
    unfold hx hy
    rw [hg.sin, hg.cos]; exact ⟨rfl, rfl⟩
  have hsgn : ∀ g, -π ≤ g → g ≤ π → SameAngle h g → hx g dec lat * sin A = hy g dec * cos A →
      (g * A ≤ 0 ↔ 0 < hy g dec * sin A) := by
    intro g g1 g2 hg ge
    have hy0 : hy g dec ≠ 0 := by
      intro h0
      rw [h0, zero_mul] at ge
      have hx0 : hx g dec lat = 0 := (mul_eq_zero.1 ge).resolve_right hsA
      rw [(hcongr _ _ hg).1, (hcongr _ _ hg).2, h0, hx0] at hoz; simp at hoz
    have hsg : sin g ≠ 0 := by
      intro h0; apply hy0; unfold hy; rw [h0]; simp
    rw [(sign_mul_of_sin g1 g2 hsg hAr.1 hAr.2 hsA).1]
    unfold hy
    constructor
    · intro hh; nlinarith
    · intro hh
      by_contra hn
      nlinarith
  rw [heq, solve_sine hm]
  generalize hd1 : drange (arcsin (sin dec * sin A * cos lat / (cos dec * Q)) - t) = d1
  generalize hd2 : drange (-arcsin (sin dec * sin A * cos lat / (cos dec * Q)) - (t + π)) = d2
  have b1 := rng (arcsin (sin dec * sin A * cos lat / (cos dec * Q)) - t)
  have b2 := rng (-arcsin (sin dec * sin A * cos lat / (cos dec * Q)) - (t + π))
  rw [hd1] at b1
  rw [hd2] at b2
  by_cases hq : |sin dec * sin A * cos lat| ≤ cos dec * Q
  · have s1 : hx d1 dec lat * sin A = hy d1 dec * cos A :=
      (heq d1).2 ((solve_sine hm d1).2 ⟨hq, Or.inl (by rw [hd1]; exact ⟨0, by simp⟩)⟩)
    have s2 : hx d2 dec lat * sin A = hy d2 dec * cos A :=
      (heq d2).2 ((solve_sine hm d2).2 ⟨hq, Or.inr (by rw [hd2]; exact ⟨0, by simp⟩)⟩)
    simp only [hq, true_and, if_true]
    constructor
    · rintro ⟨c | c, p⟩
      · exact ⟨d1, d2, rfl, Or.inl ⟨(hsgn d1 b1.1 b1.2 c s1).2 (by rwa [← (hcongr _ _ c).2]), c⟩⟩
      · exact ⟨d1, d2, rfl, Or.inr ⟨(hsgn d2 b2.1 b2.2 c s2).2 (by rwa [← (hcongr _ _ c).2]), c⟩⟩
    · rintro ⟨h1, h2, e, c⟩
      simp only [Option.some.injEq, Prod.mk.injEq] at e
      obtain ⟨rfl, rfl⟩ := e
      rcases c with ⟨v, c⟩ | ⟨v, c⟩
      · exact ⟨Or.inl c, by rw [(hcongr _ _ c).2]; exact (hsgn d1 b1.1 b1.2 c s1).1 v⟩
      · exact ⟨Or.inr c, by rw [(hcongr _ _ c).2]; exact (hsgn d2 b2.1 b2.2 c s2).1 v⟩
  · simp only [hq, false_and, if_false, false_iff]
    rintro ⟨h1, h2, e, -⟩
    exact absurd e (by simp)

/-- **pda2h.**  Away from the critical values, an hour angle puts the star at the requested azimuth exactly if it is,
    up to whole turns, one of the solutions reported as valid.  (So each valid solution is right, and if none is
    reported none exists.) -/
theorem C33_pda2h (lat dec azimuth : ℝ) (hr : Regular lat dec) (ha : RegularAngle azimuth) (h : ℝ) :
    SameAngle (de2h ⟨h, dec⟩ lat).az azimuth ↔
      ∃ h1 h2, (pda2h lat dec azimuth).ha = some (h1, h2) ∧
        (((pda2h lat dec azimuth).valid1 ∧ SameAngle h h1) ∨ ((pda2h lat dec azimuth).valid2 ∧ SameAngle h h2)) := by
  obtain ⟨hA, hsA⟩ := regular_angle ha
  have hoz := regular_off_zenith hr
  obtain ⟨r1, r2, r3, r4, r5⟩ := id hr
  norm_num at r1 r2 r3 r4 r5
  have hcd := cos_pos_of_abs (b := dec) (by linarith)
  have hsp : sin lat ≠ 0 := by
    have := abs_le.1 r2
    intro h0
    have := (sin_eq_zero_iff_of_lt_of_lt (x := lat) (by linarith [pi_pos]) (by linarith [pi_pos])).1 h0
    rw [this, abs_zero] at r1; norm_num at r1
  have hsame : ∀ x, SameAngle x azimuth ↔ SameAngle x (drange azimuth) := fun x =>
    ⟨fun h => h.trans (sameAngle_drange _).symm, fun h => h.trans (sameAngle_drange _)⟩
  rw [hsame]
  refine pda2h_core hcd hsp ⟨(C15_drange _).1, (C15_drange _).2.1⟩ hsA h (hoz h) ?_
  rw [pda2h_eq, hA, regular_lat hr, regular_decA hr]

/-- The part of `pdq2h` after the adjustment of its arguments (src/pdq2h.cc:61-85). -/
noncomputable def solvePa (pn dn qn : ℝ) : TwoHa :=
  let sin_qn := Real.sin qn
  let cos_qn := Real.cos qn
  let sinqn_sindn := sin_qn * Real.sin dn
  let qt := Real.sin pn * sin_qn * Real.cos dn
  let qb := Real.cos pn * Real.sqrt (cos_qn * cos_qn + sinqn_sindn * sinqn_sindn)
  open Classical in
  if |qt| ≤ qb then
    let hpt := Real.arcsin (qt / qb)
    let t := atan2 sinqn_sindn cos_qn
    let ha1 := drange (hpt - t)
    let ha2 := drange (-hpt - (t + π))
    { ha := some (ha1, ha2), valid1 := ha1 * qn ≥ 0, valid2 := ha2 * qn ≥ 0 }
  else { ha := none, valid1 := False, valid2 := False }

theorem pdq2h_eq (lat dec q : ℝ) : pdq2h lat dec q = solvePa (adjustLat lat) (adjustDecQ dec lat) (adjustAz q) := by
  unfold pdq2h solvePa; rfl

/-- What `pdq2h` reports, once the arguments have been adjusted: the hour angles at which a star not at the zenith or nadir has the
    parallactic angle `A`. -/
theorem pdq2h_core {lat dec A : ℝ} {r : TwoHa} (hcp : 0 < cos lat) (hsp : sin lat ≠ 0) (hAr : -π ≤ A ∧ A ≤ π) (hsA : sin A ≠ 0)
    (h : ℝ) (hoz : 0 < hx h dec lat * hx h dec lat + hy h dec * hy h dec) (hr : r = solvePa lat dec A) :
    SameAngle (pa ⟨h, dec⟩ lat) A ↔
      ∃ h1 h2, r.ha = some (h1, h2) ∧ ((r.valid1 ∧ SameAngle h h1) ∨ (r.valid2 ∧ SameAngle h h2)) := by
  have rng : ∀ a, -π ≤ drange a ∧ drange a ≤ π := fun a => ⟨(C15_drange a).1, (C15_drange a).2.1⟩
  have hpa : ∀ g, 0 < hx g dec lat * hx g dec lat + hy g dec * hy g dec → pa ⟨g, dec⟩ lat = atan2 (sin g * cos lat) (cos dec * sin lat - cos g * (sin dec * cos lat)) := by
    intro g hg
    unfold pa
    dsimp only
    have e1 : cos lat * sin g = sin g * cos lat := mul_comm _ _
    have e2 : sin lat * cos dec - cos lat * sin dec * cos g = cos dec * sin lat - cos g * (sin dec * cos lat) := by ring
    rw [e1, e2, if_neg]
    rintro ⟨a, b⟩
    have := pa_rsq g dec lat
    rw [a, b] at this
    linarith
  rw [hr, sameAngle_iff, hpa h hoz, points_iff hsA (by rw [pa_rsq]; exact hoz)]
  unfold solvePa
  simp only
  have pc := polar_cos (sin A * sin dec) (cos A)
  have ps := polar_sin (sin A * sin dec) (cos A)
  have hQ : sqrt (cos A * cos A + sin A * sin dec * (sin A * sin dec)) = 0 → cos dec ≠ 0 := by
    intro h0 hc
    rw [sqrt_eq_zero (add_nonneg (mul_self_nonneg _) (mul_self_nonneg _))] at h0
    have h1 : sin A * sin dec = 0 := mul_self_eq_zero.1
      (le_antisymm (by linarith [mul_self_nonneg (cos A)]) (mul_self_nonneg _))
    have h2 := sin_sq_add_cos_sq dec
    rw [(mul_eq_zero.1 h1).resolve_left hsA, hc] at h2
    norm_num at h2
  have hs := sqrt_nonneg (cos A * cos A + sin A * sin dec * (sin A * sin dec))
  generalize atan2 (sin A * sin dec) (cos A) = t at *
  generalize sqrt (cos A * cos A + sin A * sin dec * (sin A * sin dec)) = Q at *
  have heq : ∀ g, (cos dec * sin lat - cos g * (sin dec * cos lat)) * sin A = sin g * cos lat * cos A ↔
      cos lat * Q * sin (g + t) = sin lat * sin A * cos dec := by
    intro g
    rw [sin_add]
    constructor
    · intro e
      linear_combination -e + cos lat * sin g * pc + cos lat * cos g * ps
    · intro e
      linear_combination -e + cos lat * sin g * pc + cos lat * cos g * ps
  rw [heq]
  rcases hs.eq_or_lt with h0 | hs
  · subst h0
    have hne : sin lat * sin A * cos dec ≠ 0 := mul_ne_zero (mul_ne_zero hsp hsA) (hQ rfl)
    simp only [mul_zero, zero_mul, hne.symm, false_and, false_iff, abs_nonpos_iff, hne, if_false]
    rintro ⟨h1, h2, e, -⟩
    exact absurd e (by simp)
  have hm : 0 < cos lat * Q := mul_pos hcp hs
  have hsgn : ∀ g, -π ≤ g → g ≤ π → SameAngle h g →
      (cos dec * sin lat - cos g * (sin dec * cos lat)) * sin A = sin g * cos lat * cos A →
      (g * A ≥ 0 ↔ 0 < sin g * cos lat * sin A) := by
    intro g g1 g2 hg ge
    have hsg : sin g ≠ 0 := by
      intro h0
      rw [h0, zero_mul, zero_mul] at ge
      have hx0 := (mul_eq_zero.1 ge).resolve_right hsA
      have := pa_rsq g dec lat
      rw [hx0, h0] at this
      have e : hx g dec lat = hx h dec lat ∧ hy g dec = hy h dec := by
        unfold hx hy; rw [hg.sin, hg.cos]; exact ⟨rfl, rfl⟩
      rw [e.1, e.2] at this
      linarith
    rw [ge_iff_le, (sign_mul_of_sin g1 g2 hsg hAr.1 hAr.2 hsA).2]
    constructor
    · intro hh; nlinarith
    · intro hh
      by_contra hn
      nlinarith
  have hcongr : ∀ g g', SameAngle g g' → sin g = sin g' := fun g g' hg => hg.sin
  rw [solve_sine hm]
  generalize hd1 : drange (arcsin (sin lat * sin A * cos dec / (cos lat * Q)) - t) = d1
  generalize hd2 : drange (-arcsin (sin lat * sin A * cos dec / (cos lat * Q)) - (t + π)) = d2
  have b1 := rng (arcsin (sin lat * sin A * cos dec / (cos lat * Q)) - t)
  have b2 := rng (-arcsin (sin lat * sin A * cos dec / (cos lat * Q)) - (t + π))
  rw [hd1] at b1
  rw [hd2] at b2
  by_cases hq : |sin lat * sin A * cos dec| ≤ cos lat * Q
  · have s1 := (heq d1).2 ((solve_sine hm d1).2 ⟨hq, Or.inl (by rw [hd1]; exact ⟨0, by simp⟩)⟩)
    have s2 := (heq d2).2 ((solve_sine hm d2).2 ⟨hq, Or.inr (by rw [hd2]; exact ⟨0, by simp⟩)⟩)
    simp only [hq, true_and, if_true]
    constructor
    · rintro ⟨c | c, p⟩
      · exact ⟨d1, d2, rfl, Or.inl ⟨(hsgn d1 b1.1 b1.2 c s1).2 (by rwa [← hcongr _ _ c]), c⟩⟩
      · exact ⟨d1, d2, rfl, Or.inr ⟨(hsgn d2 b2.1 b2.2 c s2).2 (by rwa [← hcongr _ _ c]), c⟩⟩
    · rintro ⟨h1, h2, e, c⟩
      simp only [Option.some.injEq, Prod.mk.injEq] at e
      obtain ⟨rfl, rfl⟩ := e
      rcases c with ⟨v, c⟩ | ⟨v, c⟩
      · exact ⟨Or.inl c, by rw [hcongr _ _ c]; exact (hsgn d1 b1.1 b1.2 c s1).1 v⟩
      · exact ⟨Or.inr c, by rw [hcongr _ _ c]; exact (hsgn d2 b2.1 b2.2 c s2).1 v⟩
  · simp only [hq, false_and, if_false, false_iff]
    rintro ⟨h1, h2, e, -⟩
    exact absurd e (by simp)

/-- **pdq2h.**  The same for the parallactic angle. -/
theorem C33_pdq2h (lat dec q : ℝ) (hr : Regular lat dec) (hq : RegularAngle q) (h : ℝ) :
    SameAngle (pa ⟨h, dec⟩ lat) q ↔
      ∃ h1 h2, (pdq2h lat dec q).ha = some (h1, h2) ∧
        (((pdq2h lat dec q).valid1 ∧ SameAngle h h1) ∨ ((pdq2h lat dec q).valid2 ∧ SameAngle h h2)) := by
  obtain ⟨hA, hsA⟩ := regular_angle hq
  have hoz := regular_off_zenith hr
  obtain ⟨r1, r2, r3, r4, r5⟩ := id hr
  norm_num at r1 r2 r3 r4 r5
  have hcp := cos_pos_of_abs (b := lat) (by linarith)
  have hsp : sin lat ≠ 0 := by
    have := abs_le.1 r2
    intro h0
    have := (sin_eq_zero_iff_of_lt_of_lt (x := lat) (by linarith [pi_pos]) (by linarith [pi_pos])).1 h0
    rw [this, abs_zero] at r1; norm_num at r1
  have hsame : ∀ x, SameAngle x q ↔ SameAngle x (drange q) := fun x =>
    ⟨fun h => h.trans (sameAngle_drange _).symm, fun h => h.trans (sameAngle_drange _)⟩
  rw [hsame]
  refine pdq2h_core hcp hsp ⟨(C15_drange _).1, (C15_drange _).2.1⟩ hsA h (hoz h) ?_
  rw [pdq2h_eq, hA, regular_lat hr, regular_decQ hr]

example : Regular 0.7 0.2 ∧ RegularAngle 2 := by
  have hpi := pi_gt_three
  refine ⟨⟨?_, ?_, ?_, ?_, ?_⟩, ?_, ?_⟩
  · norm_num
  · norm_num; linarith
  · norm_num
  · norm_num; linarith
  · norm_num [abs_of_pos, abs_of_neg]
  · rw [(C15_drange_laws 2).1 (by norm_num; linarith)]; norm_num
  · rw [(C15_drange_laws 2).1 (by norm_num; linarith)]; norm_num; linarith

end Sla.Props
