import Verif.Lemmas.FpHourAngle

/-
Property theorems C137: hour angle from azimuth or parallactic angle in double precision.
-/
namespace Sla.Props
open Sla.Fp
open Real (pi)

/-- C137: hour angle from azimuth.  Away from the zenith, an hour angle `h` has the azimuth `az`, or the opposite one, if and only if
    `cos dec (-cos az sin h + sin az sin lat cos h) = sin dec sin az cos lat`.  Both hour angles that `pda2h` returns in double precision solve
    this to within 2e-11; where it reports no solution no hour angle brings the left side above the magnitude of the right by more than
    3e-11; and it can only return NaNs where the equation holds for every hour angle to within 6e-11.  The flag of a solution says that it
    and the azimuth, moved by at most 2.11e-12, are not of the same sign, unless their product is below 1e-190. -/
theorem C137_pda2h (R : Rounding binary64) {sn cs asn : ℝ → ℝ} (hs : ∀ x, |sn x - Real.sin x| ≤ 2e-16) (hc : ∀ x, |cs x - Real.cos x| ≤ 2e-16)
    (hasn : ∀ v, |v| ≤ 1 → |asn v - Real.arcsin v| ≤ 1e-15) {at2 : ℝ → ℝ → ℝ} (hat : Spec.Atan2Near at2 1e-15) {lat dec az : ℝ}
    (h1 : binary64.Rep lat) (h2 : binary64.Rep dec) (h3 : binary64.Rep az) (l1 : |lat| ≤ 10) (l2 : |dec| ≤ 10) (l3 : |az| ≤ 10) :
    match Fp.pda2h R sn cs asn at2 lat dec az with
    | .none => 0 ≤ Real.cos dec → ∀ h : ℝ, Real.cos dec * (-Real.cos az * Real.sin h + Real.sin az * Real.sin lat * Real.cos h) ≤
        |Real.sin dec * Real.sin az * Real.cos lat| + 3e-11
    | .nan => |Real.sin dec * Real.sin az * Real.cos lat| ≤ 3e-11 ∧
        ∀ h : ℝ, |Real.cos dec * (-Real.cos az * Real.sin h + Real.sin az * Real.sin lat * Real.cos h)| ≤ 3e-11
    | .two ha1 ha2 v1 v2 =>
        |Real.cos dec * (-Real.cos az * Real.sin ha1 + Real.sin az * Real.sin lat * Real.cos ha1) - Real.sin dec * Real.sin az * Real.cos lat| ≤ 2e-11 ∧
        |Real.cos dec * (-Real.cos az * Real.sin ha2 + Real.sin az * Real.sin lat * Real.cos ha2) - Real.sin dec * Real.sin az * Real.cos lat| ≤ 2e-11 ∧
        |ha1| ≤ 3.15 ∧ |ha2| ≤ 3.15 ∧ ∃ A : ℝ, (∃ n : ℤ, |A - (az + n * (2 * pi))| ≤ 2.11e-12) ∧ |A| ≤ 3.16 ∧
          (ha1 * A ≤ 0 → v1) ∧ (1e-190 ≤ ha1 * A → ¬v1) ∧ (ha2 * A ≤ 0 → v2) ∧ (1e-190 ≤ ha2 * A → ¬v2) := by
  unfold Fp.pda2h
  dsimp only
  have na := adjust_near R (|R (|Fp.drange R az| - R 3.141592653589793238462643)| < R 1e-12) (drange_turn R h3 l3)
  have np := adjust_near R (|R (|Fp.drange R lat| - R (R 3.141592653589793238462643 / 2))| < R 1e-12) (drange_turn R h1 l1)
  have nd := adjust_near R (|R (|Fp.drange R dec| - |lat|)| < R 1e-12 ∨ |R (|Fp.drange R dec| - R (R 3.141592653589793238462643 / 2))| < R 1e-12)
    (drange_turn R h2 l2)
  generalize adjustBy R (|R (|Fp.drange R az| - R 3.141592653589793238462643)| < R 1e-12) (Fp.drange R az) = an at *
  generalize adjustBy R (|R (|Fp.drange R lat| - R (R 3.141592653589793238462643 / 2))| < R 1e-12) (Fp.drange R lat) = pn at *
  generalize adjustBy R (|R (|Fp.drange R dec| - |lat|)| < R 1e-12 ∨ |R (|Fp.drange R dec| - R (R 3.141592653589793238462643 / 2))| < R 1e-12)
    (Fp.drange R dec) = dn at *
  have sa : Nb (sn an) (Real.sin az) 2.111e-12 1 := na.sin hs (by norm_num)
  have ca : Nb (cs an) (Real.cos az) 2.111e-12 1 := na.cos hc (by norm_num)
  have sp : Nb (sn pn) (Real.sin lat) 2.111e-12 1 := np.sin hs (by norm_num)
  have cp : Nb (cs pn) (Real.cos lat) 2.111e-12 1 := np.cos hc (by norm_num)
  have sd : Nb (sn dn) (Real.sin dec) 2.111e-12 1 := nd.sin hs (by norm_num)
  have cd : Nb (cs dn) (Real.cos dec) 2.111e-12 1 := nd.cos hc (by norm_num)
  have nm : Nb (R (sn an * sn pn)) (Real.sin az * Real.sin lat) 4.25e-12 1 := R.dbl.nmul sa sp (by norm_num) (by norm_num)
  have nq1 : Nb (R (sn dn * sn an)) (Real.sin dec * Real.sin az) 4.25e-12 1 := R.dbl.nmul sd sa (by norm_num) (by norm_num)
  have nq : Nb (R (R (sn dn * sn an) * cs pn)) (Real.sin dec * Real.sin az * Real.cos lat) 6.4e-12 1 := R.dbl.nmul nq1 cp (by norm_num) (by norm_num)
  have key := hourAngles_exact R hasn hat (cd.mono (by norm_num) le_rfl) (ca.neg.mono (by norm_num) le_rfl) nm nq (valid := fun h => R (h * an) ≤ 0)
  generalize hourAngles R asn at2 (cs dn) (-cs an) (R (sn an * sn pn)) (R (R (sn dn * sn an) * cs pn)) (fun h => R (h * an) ≤ 0) = o at *
  cases o with
  | none => exact key
  | nan => exact key
  | two ha1 ha2 v1 v2 =>
    dsimp only at key ⊢
    obtain ⟨k1, k2, k3, k4, k5, k6⟩ := key
    refine ⟨k1, k2, k3, k4, an, na.err, na.bd, ?_, ?_, ?_, ?_⟩
    · exact fun h => k5.2 ((sign_test R _).1 h)
    · exact fun h h' => absurd (k5.1 h') (not_le.2 ((sign_test R _).2 h))
    · exact fun h => k6.2 ((sign_test R _).1 h)
    · exact fun h h' => absurd (k6.1 h') (not_le.2 ((sign_test R _).2 h))

/-- C137: hour angle from parallactic angle.  Away from the zenith, an hour angle `h` has the parallactic angle `q`, or the opposite one, if and only if
    `cos lat (cos q sin h + sin q sin dec cos h) = sin lat sin q cos dec`; the same bounds hold for `pdq2h`, whose flags say that the hour angle
    and the parallactic angle are not of opposite sign. -/
theorem C137_pdq2h (R : Rounding binary64) {sn cs asn : ℝ → ℝ} (hs : ∀ x, |sn x - Real.sin x| ≤ 2e-16) (hc : ∀ x, |cs x - Real.cos x| ≤ 2e-16)
    (hasn : ∀ v, |v| ≤ 1 → |asn v - Real.arcsin v| ≤ 1e-15) {at2 : ℝ → ℝ → ℝ} (hat : Spec.Atan2Near at2 1e-15) {lat dec pa : ℝ}
    (h1 : binary64.Rep lat) (h2 : binary64.Rep dec) (h3 : binary64.Rep pa) (l1 : |lat| ≤ 10) (l2 : |dec| ≤ 10) (l3 : |pa| ≤ 10) :
    match Fp.pdq2h R sn cs asn at2 lat dec pa with
    | .none => 0 ≤ Real.cos lat → ∀ h : ℝ, Real.cos lat * (Real.cos pa * Real.sin h + Real.sin pa * Real.sin dec * Real.cos h) ≤
        |Real.sin lat * Real.sin pa * Real.cos dec| + 3e-11
    | .nan => |Real.sin lat * Real.sin pa * Real.cos dec| ≤ 3e-11 ∧
        ∀ h : ℝ, |Real.cos lat * (Real.cos pa * Real.sin h + Real.sin pa * Real.sin dec * Real.cos h)| ≤ 3e-11
    | .two ha1 ha2 v1 v2 =>
        |Real.cos lat * (Real.cos pa * Real.sin ha1 + Real.sin pa * Real.sin dec * Real.cos ha1) - Real.sin lat * Real.sin pa * Real.cos dec| ≤ 2e-11 ∧
        |Real.cos lat * (Real.cos pa * Real.sin ha2 + Real.sin pa * Real.sin dec * Real.cos ha2) - Real.sin lat * Real.sin pa * Real.cos dec| ≤ 2e-11 ∧
        |ha1| ≤ 3.15 ∧ |ha2| ≤ 3.15 ∧ ∃ A : ℝ, (∃ n : ℤ, |A - (pa + n * (2 * pi))| ≤ 2.11e-12) ∧ |A| ≤ 3.16 ∧
          (0 ≤ ha1 * A → v1) ∧ (ha1 * A ≤ -1e-190 → ¬v1) ∧ (0 ≤ ha2 * A → v2) ∧ (ha2 * A ≤ -1e-190 → ¬v2) := by
  unfold Fp.pdq2h
  dsimp only
  have na := adjust_near R (|R (|Fp.drange R pa| - R 3.141592653589793238462643)| < R 1e-12) (drange_turn R h3 l3)
  have np := adjust_near R (|R (|Fp.drange R lat| - R (R 3.141592653589793238462643 / 2))| < R 1e-12) (drange_turn R h1 l1)
  have nd : ∀ (c : Prop) [Decidable c], Na (if c then R (Fp.drange R dec - csign (R 1e-12) (Fp.drange R dec)) else Fp.drange R dec) dec 2.11e-12 3.16 := by
    intro c _
    split_ifs
    · exact (sign_near R (drange_turn R h2 l2) le_rfl).mono (by norm_num) le_rfl
    · exact (drange_turn R h2 l2).mono (by norm_num) (by norm_num)
  generalize adjustBy R (|R (|Fp.drange R pa| - R 3.141592653589793238462643)| < R 1e-12) (Fp.drange R pa) = an at *
  generalize adjustBy R (|R (|Fp.drange R lat| - R (R 3.141592653589793238462643 / 2))| < R 1e-12) (Fp.drange R lat) = pn at *
  have nd := nd (|R (|dec| - |lat|)| < R 1e-12 ∨ |R (|dec| - R (R 3.141592653589793238462643 / 2))| < R 1e-12)
  revert nd
  generalize hdn : (if |R (|dec| - |lat|)| < R 1e-12 ∨ |R (|dec| - R (R 3.141592653589793238462643 / 2))| < R 1e-12 then
    R (Fp.drange R dec - csign (R 1e-12) (Fp.drange R dec)) else Fp.drange R dec) = dn
  intro nd
  have sa : Nb (sn an) (Real.sin pa) 2.111e-12 1 := na.sin hs (by norm_num)
  have ca : Nb (cs an) (Real.cos pa) 2.111e-12 1 := na.cos hc (by norm_num)
  have sp : Nb (sn pn) (Real.sin lat) 2.111e-12 1 := np.sin hs (by norm_num)
  have cp : Nb (cs pn) (Real.cos lat) 2.111e-12 1 := np.cos hc (by norm_num)
  have sd : Nb (sn dn) (Real.sin dec) 2.111e-12 1 := nd.sin hs (by norm_num)
  have cd : Nb (cs dn) (Real.cos dec) 2.111e-12 1 := nd.cos hc (by norm_num)
  have nm : Nb (R (sn an * sn dn)) (Real.sin pa * Real.sin dec) 4.25e-12 1 := R.dbl.nmul sa sd (by norm_num) (by norm_num)
  have nq1 : Nb (R (sn pn * sn an)) (Real.sin lat * Real.sin pa) 4.25e-12 1 := R.dbl.nmul sp sa (by norm_num) (by norm_num)
  have nq : Nb (R (R (sn pn * sn an) * cs dn)) (Real.sin lat * Real.sin pa * Real.cos dec) 6.4e-12 1 := R.dbl.nmul nq1 cd (by norm_num) (by norm_num)
  have key := hourAngles_exact R hasn hat (cp.mono (by norm_num) le_rfl) (ca.mono (by norm_num) le_rfl) nm nq (valid := fun h => R (h * an) ≥ 0)
  generalize hourAngles R asn at2 (cs pn) (cs an) (R (sn an * sn dn)) (R (R (sn pn * sn an) * cs dn)) (fun h => R (h * an) ≥ 0) = o at *
  have neg : ∀ z : ℝ, z ≤ -1e-190 → R z < 0 := fun z hz => by
    have := (sign_test R (-z)).2 (by linarith)
    rw [R.odd] at this
    linarith
  cases o with
  | none => exact key
  | nan => exact key
  | two ha1 ha2 v1 v2 =>
    dsimp only at key ⊢
    obtain ⟨k1, k2, k3, k4, k5, k6⟩ := key
    refine ⟨k1, k2, k3, k4, an, na.err, na.bd, ?_, ?_, ?_, ?_⟩
    · exact fun h => k5.2 (R.nonneg h)
    · exact fun h h' => absurd (k5.1 h') (not_le.2 (neg _ h))
    · exact fun h => k6.2 (R.nonneg h)
    · exact fun h h' => absurd (k6.1 h') (not_le.2 (neg _ h))

/-- C137: for latitudes and declinations up to a right angle neither function divides zero by zero, whatever the azimuth or parallactic angle:
    the adjustments by 1e-12 keep the divisor of `pda2h` and the numerator of `pdq2h` away from zero. -/
theorem C137_defined (R : Rounding binary64) {sn cs : ℝ → ℝ} (hs : ∀ x, |sn x - Real.sin x| ≤ 2e-16) (hc : ∀ x, |cs x - Real.cos x| ≤ 2e-16)
    (asn : ℝ → ℝ) (at2 : ℝ → ℝ → ℝ) {lat dec az : ℝ} (h1 : binary64.Rep lat) (h2 : binary64.Rep dec) (h3 : binary64.Rep az)
    (l1 : |lat| ≤ pi / 2) (l2 : |dec| ≤ pi / 2) :
    Fp.pda2h R sn cs asn at2 lat dec az ≠ .nan ∧ Fp.pdq2h R sn cs asn at2 lat dec az ≠ .nan := by
  have p1 := Real.pi_gt_d20
  have p2 := Real.pi_lt_d20
  have hr := right_near R
  have hr1 : 1.5 ≤ R (R 3.141592653589793238462643 / 2) := by
    have := (abs_le.1 hr).1
    norm_num at *; linarith
  have d1 : Fp.drange R lat = lat := drange_small R h1 (by norm_num at *; linarith)
  have d2 : Fp.drange R dec = dec := drange_small R h2 (by norm_num at *; linarith)
  have big1 : (1 : ℝ) ≤ pi / 2 := by norm_num at *; linarith
  have big2 : pi / 2 ≤ 3.15 := by norm_num at *; linarith
  have pn1 := adjust_inside R big1 big2 hr l1 (c := |R (|lat| - R (R 3.141592653589793238462643 / 2))| < R 1e-12) id
  have pn2 := adjust_outside R (a := lat) hr1
  constructor
  · intro h
    unfold Fp.pda2h at h
    dsimp only at h
    rw [d1, d2] at h
    have dn1 := adjust_inside R big1 big2 hr l2
      (c := |R (|dec| - |lat|)| < R 1e-12 ∨ |R (|dec| - R (R 3.141592653589793238462643 / 2))| < R 1e-12) Or.inr
    have sp := lib_away (hs _) (sin_away pn2 (by linarith))
    have cd := lib_away (hc _) ((cos_away dn1).trans (le_abs_self _))
    refine divisor_pos R cd ?_ (hourAngles_nan h).2
    generalize adjustBy R (|R (|Fp.drange R az| - R 3.141592653589793238462643)| < R 1e-12) (Fp.drange R az) = an at *
    rw [abs_neg]
    by_cases hx : 1e-13 ≤ |cs an|
    · exact Or.inl hx
    · right
      push Not at hx
      have e1 : |Real.cos an| ≤ 0.1 := by
        have := abs_add_le (cs an) (Real.cos an - cs an)
        rw [add_sub_cancel, abs_sub_comm] at this
        have := hc an
        norm_num at *; linarith
      have e2 : 0.9 ≤ |Real.sin an| := by
        have e3 := Real.sin_sq_add_cos_sq an
        rw [← sq_abs (Real.sin an), ← sq_abs (Real.cos an)] at e3
        by_contra e4
        push Not at e4
        have e5 := mul_self_le_mul_self (abs_nonneg _) e4.le
        have e6 := mul_self_le_mul_self (abs_nonneg _) e1
        rw [sq, sq] at e3
        generalize |Real.sin an| * |Real.sin an| = u at *
        generalize |Real.cos an| * |Real.cos an| = w at *
        norm_num at e3 e5 e6; linarith
      have e4 : 0.8 ≤ |sn an| := by
        have := abs_add_le (sn an) (Real.sin an - sn an)
        rw [add_sub_cancel, abs_sub_comm] at this
        have := hs an
        norm_num at *; linarith
      have e5 := mul_le_mul e4 sp (by norm_num) (abs_nonneg _)
      rw [← abs_mul] at e5
      exact le_trans (by norm_num) (half_le R (by norm_num) e5)
  · intro h
    unfold Fp.pdq2h at h
    dsimp only at h
    rw [d1, d2] at h
    have hpi : |R 3.141592653589793238462643 - pi| ≤ 4e-16 := by
      rw [fp_pi64, abs_le]; constructor <;> norm_num at * <;> linarith
    have hq : |Fp.drange R az| ≤ pi := (C77_drange R az h3).1.trans (C77_drange R az h3).2.1.le
    have qn1 := adjust_inside R (by linarith [Real.pi_gt_three]) (by norm_num at *; linarith) hpi hq
      (c := |R (|Fp.drange R az| - R 3.141592653589793238462643)| < R 1e-12) id
    have qn2 := adjust_outside R (a := Fp.drange R az) (D := R 3.141592653589793238462643) (by
      have := (abs_le.1 hpi).1
      norm_num at *; linarith)
    have sp := lib_away (hs _) (sin_away pn2 (by linarith))
    have sq := lib_away (hs _) (sin_away qn2 qn1)
    have q0 := (hourAngles_nan h).1
    revert q0
    generalize hdn : (if |R (|dec| - |lat|)| < R 1e-12 ∨ |R (|dec| - R (R 3.141592653589793238462643 / 2))| < R 1e-12 then
      R (dec - csign (R 1e-12) dec) else dec) = dn
    have dn1 : |dn| ≤ pi / 2 - 0.99e-12 := by
      rw [← hdn]
      split_ifs with c
      · exact sign_inside R big1 big2 l2
      · have e1 := apart R (fun e => c (Or.inr e))
        have e2 := abs_le.1 hr
        rcases abs_cases (|dec| - R (R 3.141592653589793238462643 / 2)) with ⟨e, _⟩ | ⟨e, _⟩ <;> rw [e] at e1 <;> norm_num at * <;> linarith
    have cd := lib_away (hc _) ((cos_away dn1).trans (le_abs_self _))
    intro q0
    have e5 := mul_le_mul sp sq (by norm_num) (abs_nonneg _)
    rw [← abs_mul] at e5
    have e6 := mul_le_mul (half_le R (by norm_num) e5) cd (by norm_num) (abs_nonneg _)
    rw [← abs_mul] at e6
    have e7 := half_le R (by norm_num) e6
    rw [q0, abs_zero] at e7
    norm_num at e7

/-- The hypotheses at latitude 0.75, declination 0.5 and azimuth or parallactic angle 2, with exact library functions. -/
example : binary64.Rep 0.75 ∧ binary64.Rep 0.5 ∧ binary64.Rep 2 ∧ |(0.75 : ℝ)| ≤ 10 ∧ |(0.5 : ℝ)| ≤ 10 ∧ |(2 : ℝ)| ≤ 10 ∧
    |(0.75 : ℝ)| ≤ pi / 2 ∧ |(0.5 : ℝ)| ≤ pi / 2 ∧
    0 ≤ Real.cos 0.5 ∧ 0 ≤ Real.cos 0.75 ∧ (∀ v : ℝ, |v| ≤ 1 → |Real.arcsin v - Real.arcsin v| ≤ 1e-15) ∧ Spec.Atan2Near atan2 1e-15 := by
  refine ⟨⟨3, -2, by norm_num [binary64], by norm_num [binary64], by norm_num⟩, ⟨1, -1, by norm_num [binary64], by norm_num [binary64], by norm_num⟩,
    ⟨2, 0, by norm_num [binary64], by norm_num [binary64], by norm_num⟩, by norm_num [abs_of_pos], by norm_num [abs_of_pos], by norm_num,
    by rw [abs_of_pos] <;> linarith [Real.pi_gt_three], by rw [abs_of_pos] <;> linarith [Real.pi_gt_three], Real.cos_nonneg_of_mem_Icc ⟨?_, ?_⟩, Real.cos_nonneg_of_mem_Icc ⟨?_, ?_⟩, fun v _ => by norm_num, fun y x _ => by norm_num, fun x hx => Or.inl ?_⟩
  · linarith [Real.pi_gt_three]
  · linarith [Real.pi_gt_three]
  · linarith [Real.pi_gt_three]
  · linarith [Real.pi_gt_three]
  · have : atan2 0 x = Real.pi := by unfold atan2; exact Complex.arg_ofReal_of_neg hx
    rw [this]; norm_num

end Sla.Props
