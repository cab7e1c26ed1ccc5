import Verif.Lemmas.FpMoon

/-
Error analysis of `moon` in single precision: the ecliptic coordinates and the vectors.
-/
namespace Sla.Fp
open Real (pi)

private theorem sin_le (x : ℝ) : |Real.sin x| ≤ 1 := Real.abs_sin_le_one x
private theorem cos_le (x : ℝ) : |Real.cos x| ≤ 1 := Real.abs_cos_le_one x
private theorem add_bd {x y A B C : ℝ} (hx : |x| ≤ A) (hy : |y| ≤ B) (h : A + B ≤ C) : |x + y| ≤ C :=
  (abs_add_le x y).trans ((add_le_add hx hy).trans h)
private theorem sub_bd {x y A B C : ℝ} (hx : |x| ≤ A) (hy : |y| ≤ B) (h : A + B ≤ C) : |x - y| ≤ C :=
  (abs_sub x y).trans ((add_le_add hx hy).trans h)
private theorem mul_bd {x y A B C : ℝ} (hx : |x| ≤ A) (hy : |y| ≤ B) (h : A * B ≤ C) : |x * y| ≤ C := by
  rw [abs_mul]
  exact (mul_le_mul hx hy (abs_nonneg _) ((abs_nonneg _).trans hx)).trans h
private theorem lit_bd {x A : ℝ} (h1 : -A ≤ x) (h2 : x ≤ A) : |x| ≤ A := abs_le.2 ⟨h1, h2⟩

section
variable {R : ℝ → ℝ} {sn cs : ℝ → ℝ} {a b : MoonArgs}

private theorem c_abs (k : MoonTerm) : |k.c| = 1e-6 * (|k.coeff| : ℤ) := by
  unfold MoonTerm.c; push_cast; rw [abs_div]; norm_num; ring

/-- A sine series. -/
theorem sin_series (hR : Single R) (hs : ∀ x, |sn x - Real.sin x| ≤ 1.2e-7) (hc : ∀ x, |cs x - Real.cos x| ≤ 1.2e-7)
    (h : ArgsNear a b) {B C : ℝ} (l : List MoonTerm) (hl : ∀ k ∈ l, TermOk k)
    (hB : 1e-6 * (sumBd l : ℝ) ≤ B) (hB' : 1e-12 * (sumErr l : ℝ) + l.length * (6.1e-8 * B) ≤ 0.01 * B) (hB0 : 1e-20 ≤ B)
    (hC : 1e-6 * (sumBdRate l : ℝ) ≤ C) (hC' : 1e-12 * (sumErrRate l : ℝ) + l.length * (6.1e-8 * C) ≤ 0.01 * C)
    (hC0 : 1e-20 ≤ C) :
    let x := l.foldl (moonSinTerm R sn cs a) (0, 0)
    let y := l.foldl (Sla.moonSinTerm b) (0, 0)
    |x.1 - y.1| ≤ 1e-12 * (sumErr l : ℝ) + l.length * (6.1e-8 * B) ∧ |y.1| ≤ 1e-6 * (sumBd l : ℝ) ∧
    |x.2 - y.2| ≤ 1e-12 * (sumErrRate l : ℝ) + l.length * (6.1e-8 * C) ∧ |y.2| ≤ 1e-6 * (sumBdRate l : ℝ) := by
  refine series_near hR (u := fun k => k.c * Real.sin (k.theta b)) (u' := fun k => R (R k.c * sn (moonTheta R k a)))
    (v := fun k => k.c * Real.cos (k.theta b) * k.thetad)
    (v' := fun k => R (R (R k.c * cs (moonTheta R k a)) * moonThetad R k)) l (fun k hk => ?_) (fun k hk => ?_)
    hB hB' hB0 hC hC' hC0
  · obtain ⟨h1, h2, h3, h4, h5⟩ := hl k hk
    refine ⟨(term_near hR h1 h2 h3 h4 h5 (sin_err hs (theta_near hR h k)) (sin_le _)).1, ?_⟩
    exact mul_bd (c_abs k).le (sin_le _) (by rw [mul_one])
  · obtain ⟨h1, h2, h3, h4, h5⟩ := hl k hk
    refine ⟨(term_near hR h1 h2 h3 h4 h5 (cos_err hc (theta_near hR h k)) (cos_le _)).2, ?_⟩
    refine mul_bd (mul_bd (c_abs k).le (cos_le _) le_rfl) (thetad_near hR k).2 ?_
    push_cast; linarith

/-- A cosine series. -/
theorem cos_series (hR : Single R) (hs : ∀ x, |sn x - Real.sin x| ≤ 1.2e-7) (hc : ∀ x, |cs x - Real.cos x| ≤ 1.2e-7)
    (h : ArgsNear a b) {B C : ℝ} (l : List MoonTerm) (hl : ∀ k ∈ l, TermOk k)
    (hB : 1e-6 * (sumBd l : ℝ) ≤ B) (hB' : 1e-12 * (sumErr l : ℝ) + l.length * (6.1e-8 * B) ≤ 0.01 * B) (hB0 : 1e-20 ≤ B)
    (hC : 1e-6 * (sumBdRate l : ℝ) ≤ C) (hC' : 1e-12 * (sumErrRate l : ℝ) + l.length * (6.1e-8 * C) ≤ 0.01 * C)
    (hC0 : 1e-20 ≤ C) :
    let x := l.foldl (moonCosTerm R sn cs a) (0, 0)
    let y := l.foldl (Sla.moonCosTerm b) (0, 0)
    |x.1 - y.1| ≤ 1e-12 * (sumErr l : ℝ) + l.length * (6.1e-8 * B) ∧ |y.1| ≤ 1e-6 * (sumBd l : ℝ) ∧
    |x.2 - y.2| ≤ 1e-12 * (sumErrRate l : ℝ) + l.length * (6.1e-8 * C) ∧ |y.2| ≤ 1e-6 * (sumBdRate l : ℝ) := by
  refine series_near hR (u := fun k => k.c * Real.cos (k.theta b)) (u' := fun k => R (R k.c * cs (moonTheta R k a)))
    (v := fun k => -(k.c * Real.sin (k.theta b) * k.thetad))
    (v' := fun k => -R (R (R k.c * sn (moonTheta R k a)) * moonThetad R k)) l (fun k hk => ?_) (fun k hk => ?_)
    hB hB' hB0 hC hC' hC0
  · obtain ⟨h1, h2, h3, h4, h5⟩ := hl k hk
    refine ⟨(term_near hR h1 h2 h3 h4 h5 (cos_err hc (theta_near hR h k)) (cos_le _)).1, ?_⟩
    exact mul_bd (c_abs k).le (cos_le _) (by rw [mul_one])
  · obtain ⟨h1, h2, h3, h4, h5⟩ := hl k hk
    rw [neg_sub_neg, abs_sub_comm, abs_neg]
    refine ⟨(term_near hR h1 h2 h3 h4 h5 (sin_err hs (theta_near hR h k)) (sin_le _)).2, ?_⟩
    refine mul_bd (mul_bd (c_abs k).le (sin_le _) le_rfl) (thetad_near hR k).2 ?_
    push_cast; linarith

/-- The tables. -/
theorem table_sums : (∀ k ∈ moonL.reverse, TermOk k) ∧ (∀ k ∈ moonB.reverse, TermOk k) ∧ (∀ k ∈ moonP.reverse, TermOk k) ∧
    sumBd moonL.reverse = 9188800 ∧ sumErr moonL.reverse = 2476836504 ∧ sumBdRate moonL.reverse = 62194269039 ∧
    sumErrRate moonL.reverse = 21711603932798 ∧ sumBd moonB.reverse = 6074199 ∧ sumErr moonB.reverse = 1339952319 ∧
    sumBdRate moonB.reverse = 36087394078 ∧ sumErrRate moonB.reverse = 10013347317556 ∧ sumBd moonP.reverse = 72016 ∧
    sumErr moonP.reverse = 17979136 ∧ sumBdRate moonP.reverse = 474442528 ∧ sumErrRate moonP.reverse = 147376410784 ∧
    moonL.reverse.length = 39 ∧ moonB.reverse.length = 29 ∧ moonP.reverse.length = 4 := by
  decide +kernel

/-- Ecliptic coordinates close to each other, with the bounds of the exact ones. -/
structure EclNear (x y : SphericalPV) : Prop where
  long : |x.long - y.long| ≤ 2.2e-4
  lat : |x.lat - y.lat| ≤ 2.38e-5
  dist : |x.dist - y.dist| ≤ 8.2e-8
  dlong : |x.dlong - y.dlong| ≤ 2.14e-10
  dlat : |x.dlat - y.dlat| ≤ 9.8e-11
  ddist : |x.ddist - y.ddist| ≤ 3.1e-13
  blat : |y.lat| ≤ 0.1061
  bdist : |y.dist| ≤ 0.002782
  bdlong : |y.dlong| ≤ 3.27e-6
  bdlat : |y.dlat| ≤ 3.49e-7
  bddist : |y.ddist| ≤ 8.32e-10

/-- From the parallax to the distance. -/
private theorem dist_near (hR : Single R) (hs : ∀ x, |sn x - Real.sin x| ≤ 1.2e-7) {deg rate xp yp xpd ypd : ℝ}
    (hdeg : |deg - d2r| ≤ 1.06e-9) (hrate : |rate - moonRate| ≤ 5.9e-19) (bdeg : |d2r| ≤ 0.0174532926)
    (brate : |moonRate| ≤ 9.6527436e-12) (P1 : |xp - yp| ≤ 1.8e-5) (P2 : |yp| ≤ 0.07202) (P3 : |xpd - ypd| ≤ 0.1475)
    (P4 : |ypd| ≤ 474.5) :
    let sp' := sn (R (R (xp + R 0.950724) * deg))
    let sp := Real.sin ((yp + 0.950724) * d2r)
    let r' := R (R 4.2635212653763e-5 / sp')
    let r := 4.2635212653763e-5 / sp
    |r' - r| ≤ 8.2e-8 ∧ |r| ≤ 0.002782 ∧
    |R (R (-r' * R (xpd * rate)) / sp') - -r * (ypd * moonRate) / sp| ≤ 3.1e-13 ∧ |-r * (ypd * moonRate) / sp| ≤ 8.32e-10 := by
  intro sp' sp r' r
  -- parallax
  have q1 : |R 0.950724 - 0.950724| ≤ 5.8e-8 := hR.lit (B := 0.950724) (by norm_num) (by norm_num)
  have bq2 : |yp + 0.950724| ≤ 1.023 := add_bd P2 (B := 0.950724) (by norm_num) (by norm_num)
  have q2 : |R (xp + R 0.950724) - (yp + 0.950724)| ≤ 1.82e-5 := hR.add P1 q1 bq2 (by norm_num)
  have q3 : |R (R (xp + R 0.950724) * deg) - (yp + 0.950724) * d2r| ≤ 3.21e-7 := hR.mul q2 hdeg bq2 bdeg (by norm_num)
  have q4 : |R (xpd * rate) - ypd * moonRate| ≤ 1.43e-12 := hR.mul P3 hrate P4 brate (by norm_num)
  have bq4 : |ypd * moonRate| ≤ 4.581e-9 := mul_bd P4 brate (by norm_num)
  have P2' := abs_le.1 P2
  have hp1 : 0.0153362 ≤ (yp + 0.950724) * d2r := by
    refine le_trans ?_ (mul_le_mul (by linarith [P2'.1] : 0.878704 ≤ yp + 0.950724) d2r_gt.le (by norm_num)
      (by linarith [P2'.1]))
    norm_num
  have hp2 : (yp + 0.950724) * d2r ≤ 0.01786 := (le_abs_self _).trans (mul_bd bq2 bdeg (by norm_num))
  have q5 : |sn (R (R (xp + R 0.950724) * deg)) - Real.sin ((yp + 0.950724) * d2r)| ≤ 4.42e-7 :=
    (sin_err hs q3).trans (by norm_num)
  have hsp : 0.015334 ≤ sp := by
    have h1 := Real.sin_gt_sub_cube (by linarith : 0 < (yp + 0.950724) * d2r)
    have h2 : ((yp + 0.950724) * d2r) ^ 3 ≤ 6e-6 :=
      (pow_le_pow_left₀ (by linarith) hp2 3).trans (by norm_num)
    change 0.015334 ≤ Real.sin ((yp + 0.950724) * d2r)
    linarith
  change |sp' - sp| ≤ 4.42e-7 at q5
  clear_value sp' sp
  clear hp1 hp2 P2' q1 bq2 q2 q3 P1 P2 P3 P4
  generalize R (xpd * rate) = pd' at *
  generalize ypd * moonRate = pd at *
  have e1 : |R 4.2635212653763e-5 - 4.2635212653763e-5| ≤ 2.6e-12 :=
    hR.lit (B := 4.2635212653763e-5) (by norm_num) (by norm_num)
  have br : |r| ≤ 0.002782 := by
    change |4.2635212653763e-5 / sp| ≤ 0.002782
    rw [abs_div, abs_of_pos (by linarith : 0 < sp), div_le_iff₀ (by linarith), abs_of_pos (by norm_num)]; linarith
  have hm : 0.015334 ≤ |sp| := hsp.trans (le_abs_self _)
  have er : |r' - r| ≤ 8.2e-8 :=
    hR.div (E := 8.1e-8) e1 q5 hm (by norm_num) br (by norm_num) (by norm_num)
  clear_value r' r
  have er' : |-r' - -r| ≤ 8.2e-8 := by rw [neg_sub_neg, abs_sub_comm]; exact er
  have br' : |-r| ≤ 0.002782 := by rw [abs_neg]; exact br
  have s1 : |R (-r' * pd') - -r * pd| ≤ 4.36e-15 := hR.mul er' q4 br' bq4 (by norm_num)
  have bs1 : |-r * pd| ≤ 1.2745e-11 := mul_bd br' bq4 (by norm_num)
  have bs2 : |-r * pd / sp| ≤ 8.32e-10 := by
    rw [abs_div, div_le_iff₀ (by linarith)]
    refine bs1.trans ?_
    linarith
  have s2 : |R (R (-r' * pd') / sp') - -r * pd / sp| ≤ 3.1e-13 :=
    hR.div (E := 3.09e-13) s1 q5 hm (by norm_num) bs2 (by norm_num) (by norm_num)
  exact ⟨er, br, s2, bs2⟩

/-- From the longitude series to the longitude. -/
private theorem long_near (hR : Single R) {deg rate elp' elp xl yl xld yld : ℝ}
    (hdeg : |deg - d2r| ≤ 1.06e-9) (hrate : |rate - moonRate| ≤ 5.9e-19) (bdeg : |d2r| ≤ 0.0174532926)
    (brate : |moonRate| ≤ 9.6527436e-12) (help : |elp' - elp| ≤ 1.74e-4) (belp : |elp| ≤ 6.3) (L1 : |xl - yl| ≤ 2.51e-3)
    (L2 : |yl| ≤ 9.19) (L3 : |xld - yld| ≤ 21.87) (L4 : |yld| ≤ 62195) :
    |R (R (xl * deg) + elp') - (yl * d2r + elp)| ≤ 2.2e-4 ∧
    |R (rate * R (xld + R (R 4812.678831 / deg))) - moonRate * (yld + 4812.678831 / d2r)| ≤ 2.14e-10 ∧
    |moonRate * (yld + 4812.678831 / d2r)| ≤ 3.27e-6 := by
  have d1 := d2r_gt
  have g1 : |R (xl * deg) - yl * d2r| ≤ 4.4e-5 := hR.mul L1 hdeg L2 bdeg (by norm_num)
  have bg1 : |yl * d2r| ≤ 0.161 := mul_bd L2 bdeg (by norm_num)
  have g2 : |R (R (xl * deg) + elp') - (yl * d2r + elp)| ≤ 2.2e-4 := hR.add g1 help (add_bd bg1 belp le_rfl) (by norm_num)
  have g3 : |R 4812.678831 - 4812.678831| ≤ 2.9e-4 := hR.lit (B := 4812.678831) (by norm_num) (by norm_num)
  have bg4 : |4812.678831 / d2r| ≤ 275747 := by
    rw [abs_div, abs_of_pos (by linarith : 0 < d2r), div_le_iff₀ (by linarith), abs_of_pos (by norm_num)]; linarith
  have g4 : |R (R 4812.678831 / deg) - 4812.678831 / d2r| ≤ 0.051 :=
    hR.div (m := 0.0174532925) (E := 0.0334) g3 hdeg (d1.le.trans (le_abs_self _)) (by norm_num) bg4 (by norm_num) (by norm_num)
  have bg5 : |yld + 4812.678831 / d2r| ≤ 337942 := add_bd L4 bg4 (by norm_num)
  have g5 : |R (xld + R (R 4812.678831 / deg)) - (yld + 4812.678831 / d2r)| ≤ 21.95 := hR.add L3 g4 bg5 (by norm_num)
  have g6 : |R (rate * R (xld + R (R 4812.678831 / deg))) - moonRate * (yld + 4812.678831 / d2r)| ≤ 2.14e-10 :=
    hR.mul hrate g5 brate bg5 (by norm_num)
  have bg6 : |moonRate * (yld + 4812.678831 / d2r)| ≤ 3.27e-6 := mul_bd brate bg5 (by norm_num)
  exact ⟨g2, g6, bg6⟩

theorem spherical_near (hR : Single R) (hs : ∀ x, |sn x - Real.sin x| ≤ 1.2e-7) (hc : ∀ x, |cs x - Real.cos x| ≤ 1.2e-7)
    (h : ArgsNear a b) : EclNear (moonSpherical R sn cs a) (Sla.moonSpherical b) := by
  obtain ⟨tL, tB, tP, l1, l2, l3, l4, b1, b2, b3, b4, p1, p2, p3, p4, nL, nB, nP⟩ := table_sums
  have sL := sin_series (B := 10) (C := 62200) hR hs hc h moonL.reverse tL (by rw [l1]; norm_num) (by rw [l2, nL]; norm_num)
    (by norm_num) (by rw [l3]; norm_num) (by rw [l4, nL]; norm_num) (by norm_num)
  have sB := sin_series (B := 6.1) (C := 36100) hR hs hc h moonB.reverse tB (by rw [b1]; norm_num) (by rw [b2, nB]; norm_num)
    (by norm_num) (by rw [b3]; norm_num) (by rw [b4, nB]; norm_num) (by norm_num)
  have sP := cos_series (B := 0.0721) (C := 475) hR hs hc h moonP.reverse tP (by rw [p1]; norm_num) (by rw [p2, nP]; norm_num)
    (by norm_num) (by rw [p3]; norm_num) (by rw [p4, nP]; norm_num) (by norm_num)
  rw [l1, l2, l3, l4, nL] at sL
  rw [b1, b2, b3, b4, nB] at sB
  rw [p1, p2, p3, p4, nP] at sP
  clear tL tB tP l1 l2 l3 l4 b1 b2 b3 b4 p1 p2 p3 p4 nL nB nP
  have hdeg := deg_near hR
  have hrate := rate_near hR
  have d1 := d2r_gt
  have d2 := d2r_lt
  obtain ⟨m1, m2⟩ := moonRate_bd
  have bdeg : |d2r| ≤ 0.0174532926 := lit_bd (by linarith) (by linarith)
  have brate : |moonRate| ≤ 9.6527436e-12 := lit_bd (by linarith) (by linarith)
  have help := h.elp
  have belp := h.belp
  simp only [moonSpherical, Sla.moonSpherical]
  generalize moonL.reverse.foldl (moonSinTerm R sn cs a) (0, 0) = xL at *
  generalize moonL.reverse.foldl (Sla.moonSinTerm b) (0, 0) = yL at *
  generalize moonB.reverse.foldl (moonSinTerm R sn cs a) (0, 0) = xB at *
  generalize moonB.reverse.foldl (Sla.moonSinTerm b) (0, 0) = yB at *
  generalize moonP.reverse.foldl (moonCosTerm R sn cs a) (0, 0) = xP at *
  generalize moonP.reverse.foldl (Sla.moonCosTerm b) (0, 0) = yP at *
  generalize R 1.745329252e-2 = deg at *
  generalize R 9.652743551e-12 = rate at *
  generalize a.elp = elp' at *
  generalize b.elp = elp at *
  obtain ⟨L1, L2, L3, L4⟩ := sL
  obtain ⟨B1, B2, B3, B4⟩ := sB
  obtain ⟨P1, P2, P3, P4⟩ := sP
  have L1 := L1.trans (show _ ≤ (2.51e-3 : ℝ) by norm_num)
  have L2 := L2.trans (show _ ≤ (9.19 : ℝ) by norm_num)
  have L3 := L3.trans (show _ ≤ (21.87 : ℝ) by norm_num)
  have L4 := L4.trans (show _ ≤ (62195 : ℝ) by norm_num)
  have B1 := B1.trans (show _ ≤ (1.352e-3 : ℝ) by norm_num)
  have B2 := B2.trans (show _ ≤ (6.075 : ℝ) by norm_num)
  have B3 := B3.trans (show _ ≤ (10.08 : ℝ) by norm_num)
  have B4 := B4.trans (show _ ≤ (36088 : ℝ) by norm_num)
  have P1 := P1.trans (show _ ≤ (1.8e-5 : ℝ) by norm_num)
  have P2 := P2.trans (show _ ≤ (0.07202 : ℝ) by norm_num)
  have P3 := P3.trans (show _ ≤ (0.1475 : ℝ) by norm_num)
  have P4 := P4.trans (show _ ≤ (474.5 : ℝ) by norm_num)
  generalize xL.1 = xl at *
  generalize xL.2 = xld at *
  generalize yL.1 = yl at *
  generalize yL.2 = yld at *
  generalize xB.1 = xb at *
  generalize xB.2 = xbd at *
  generalize yB.1 = yb at *
  generalize yB.2 = ybd at *
  generalize xP.1 = xp at *
  generalize xP.2 = xpd at *
  generalize yP.1 = yp at *
  generalize yP.2 = ypd at *
  obtain ⟨g2, g6, bg6⟩ := long_near hR hdeg hrate bdeg brate help belp L1 L2 L3 L4
  have f1 : |R (xb * deg) - yb * d2r| ≤ 2.38e-5 := hR.mul B1 hdeg B2 bdeg (by norm_num)
  have bf1 : |yb * d2r| ≤ 0.1061 := mul_bd B2 bdeg (by norm_num)
  have f2 : |R (xbd * rate) - ybd * moonRate| ≤ 9.8e-11 := hR.mul B3 hrate B4 brate (by norm_num)
  have bf2 : |ybd * moonRate| ≤ 3.49e-7 := mul_bd B4 brate (by norm_num)
  obtain ⟨er, br, s2, bs2⟩ := dist_near hR hs hdeg hrate bdeg brate P1 P2 P3 P4
  exact ⟨g2, f1, er, g6, f2, s2, bf1, br, bg6, bf2, bs2⟩

/-- The ecliptic vectors. -/
private theorem ecliptic_near (hR : Single R) (hs : ∀ x, |sn x - Real.sin x| ≤ 1.2e-7)
    (hc : ∀ x, |cs x - Real.cos x| ≤ 1.2e-7) {x y : SphericalPV} (h : EclNear x y) :
    let u := ds2c6 R sn cs x
    let v := Sla.ds2c6 y
    (|u.pos 0 - v.pos 0| ≤ 7.65e-7 ∧ |u.pos 1 - v.pos 1| ≤ 7.65e-7 ∧ |u.pos 2 - v.pos 2| ≤ 7.7e-8) ∧
    (|v.pos 0| ≤ 0.002782 ∧ |v.pos 1| ≤ 0.002782 ∧ |v.pos 2| ≤ 0.000296) ∧
    (|u.vel 0 - v.vel 0| ≤ 3.75e-12 ∧ |u.vel 1 - v.vel 1| ≤ 3.75e-12 ∧ |u.vel 2 - v.vel 2| ≤ 4e-13) ∧
    (|v.vel 0| ≤ 1.1e-8 ∧ |v.vel 1| ≤ 1.1e-8 ∧ |v.vel 2| ≤ 1.1e-9) := by
  have sl : |sn x.long - Real.sin y.long| ≤ 2.202e-4 := (sin_err hs h.long).trans (by norm_num)
  have cl : |cs x.long - Real.cos y.long| ≤ 2.202e-4 := (cos_err hc h.long).trans (by norm_num)
  have sb : |sn x.lat - Real.sin y.lat| ≤ 2.4e-5 := (sin_err hs h.lat).trans (by norm_num)
  have cb : |cs x.lat - Real.cos y.lat| ≤ 2.4e-5 := (cos_err hc h.lat).trans (by norm_num)
  have bsl := sin_le y.long
  have bcl := cos_le y.long
  have bcb := cos_le y.lat
  have bsb : |Real.sin y.lat| ≤ 0.1061 := Real.abs_sin_le_abs.trans h.blat
  obtain ⟨-, -, hd, hdl, hdb, hdd, -, bd, bdl, bdb, bdd⟩ := h
  intro u v
  simp only [u, v, ds2c6, Sla.ds2c6, Matrix.cons_val]
  clear u v
  generalize sn x.long = sl' at *
  generalize cs x.long = cl' at *
  generalize sn x.lat = sb' at *
  generalize cs x.lat = cb' at *
  generalize Real.sin y.long = sl'' at *
  generalize Real.cos y.long = cl'' at *
  generalize Real.sin y.lat = sb'' at *
  generalize Real.cos y.lat = cb'' at *
  have r1 : |R (x.dist * cb') - y.dist * cb''| ≤ 1.49e-7 := hR.mul hd cb bd bcb (by norm_num)
  have br1 : |y.dist * cb''| ≤ 0.002782 := mul_bd bd bcb (by norm_num)
  have x1 : |R (R (x.dist * cb') * cl') - y.dist * cb'' * cl''| ≤ 7.65e-7 := hR.mul r1 cl br1 bcl (by norm_num)
  have bx1 : |y.dist * cb'' * cl''| ≤ 0.002782 := mul_bd br1 bcl (by norm_num)
  have y1 : |R (R (x.dist * cb') * sl') - y.dist * cb'' * sl''| ≤ 7.65e-7 := hR.mul r1 sl br1 bsl (by norm_num)
  have by1 : |y.dist * cb'' * sl''| ≤ 0.002782 := mul_bd br1 bsl (by norm_num)
  have z1 : |R (x.dist * sb') - y.dist * sb''| ≤ 7.7e-8 := hR.mul hd sb bd bsb (by norm_num)
  have bz1 : |y.dist * sb''| ≤ 0.000296 := mul_bd bd bsb (by norm_num)
  have e1 : |R (x.dist * x.dlat) - y.dist * y.dlat| ≤ 3.02e-13 := hR.mul hd hdb bd bdb (by norm_num)
  have be1 : |y.dist * y.dlat| ≤ 9.71e-10 := mul_bd bd bdb (by norm_num)
  have e2 : |R (R (x.dist * x.dlat) * sb') - y.dist * y.dlat * sb''| ≤ 5.6e-14 := hR.mul e1 sb be1 bsb (by norm_num)
  have be2 : |y.dist * y.dlat * sb''| ≤ 1.031e-10 := mul_bd be1 bsb (by norm_num)
  have e3 : |R (cb' * x.ddist) - cb'' * y.ddist| ≤ 3.31e-13 := hR.mul cb hdd bcb bdd (by norm_num)
  have be3 : |cb'' * y.ddist| ≤ 8.32e-10 := mul_bd bcb bdd (by norm_num)
  have w1 : |R (R (R (x.dist * x.dlat) * sb') - R (cb' * x.ddist)) - (y.dist * y.dlat * sb'' - cb'' * y.ddist)| ≤ 3.9e-13 :=
    hR.sub e2 e3 (sub_bd be2 be3 le_rfl) (by norm_num)
  have bw1 : |y.dist * y.dlat * sb'' - cb'' * y.ddist| ≤ 9.4e-10 := sub_bd be2 be3 (by norm_num)
  generalize R (R (R (x.dist * x.dlat) * sb') - R (cb' * x.ddist)) = w' at *
  generalize y.dist * y.dlat * sb'' - cb'' * y.ddist = w at *
  refine ⟨⟨x1, y1, z1⟩, ⟨bx1, by1, bz1⟩, ?_⟩
  generalize R (R (x.dist * cb') * cl') = X' at *
  generalize y.dist * cb'' * cl'' = X at *
  generalize R (R (x.dist * cb') * sl') = Y' at *
  generalize y.dist * cb'' * sl'' = Y at *
  generalize R (x.dist * x.dlat) = q' at *
  generalize y.dist * y.dlat = q at *
  have y2 : |-Y' - -Y| ≤ 7.65e-7 := by rw [neg_sub_neg, abs_sub_comm]; exact y1
  have by2 : |-Y| ≤ 0.002782 := by rw [abs_neg]; exact by1
  have v1 : |R (-Y' * x.dlong) - -Y * y.dlong| ≤ 3.1e-12 := hR.mul y2 hdl by2 bdl (by norm_num)
  have bv1 : |-Y * y.dlong| ≤ 9.1e-9 := mul_bd by2 bdl (by norm_num)
  have v2 : |R (w' * cl') - w * cl''| ≤ 6e-13 := hR.mul w1 cl bw1 bcl (by norm_num)
  have bv2 : |w * cl''| ≤ 9.4e-10 := mul_bd bw1 bcl (by norm_num)
  have v3 : |R (X' * x.dlong) - X * y.dlong| ≤ 3.1e-12 := hR.mul x1 hdl bx1 bdl (by norm_num)
  have bv3 : |X * y.dlong| ≤ 9.1e-9 := mul_bd bx1 bdl (by norm_num)
  have v4 : |R (w' * sl') - w * sl''| ≤ 6e-13 := hR.mul w1 sl bw1 bsl (by norm_num)
  have bv4 : |w * sl''| ≤ 9.4e-10 := mul_bd bw1 bsl (by norm_num)
  have v5 : |R (q' * cb') - q * cb''| ≤ 3.3e-13 := hR.mul e1 cb be1 bcb (by norm_num)
  have bv5 : |q * cb''| ≤ 9.71e-10 := mul_bd be1 bcb (by norm_num)
  have v6 : |R (sb' * x.ddist) - sb'' * y.ddist| ≤ 5.5e-14 := hR.mul sb hdd bsb bdd (by norm_num)
  have bv6 : |sb'' * y.ddist| ≤ 9e-11 := mul_bd bsb bdd (by norm_num)
  refine ⟨⟨?_, ?_, ?_⟩, ⟨?_, ?_, ?_⟩⟩
  · exact hR.sub v1 v2 (sub_bd bv1 bv2 le_rfl) (by norm_num)
  · exact hR.sub v3 v4 (sub_bd bv3 bv4 le_rfl) (by norm_num)
  · exact hR.add v5 v6 (add_bd bv5 bv6 le_rfl) (by norm_num)
  · exact sub_bd bv1 bv2 (by norm_num)
  · exact sub_bd bv3 bv4 (by norm_num)
  · exact add_bd bv5 bv6 (by norm_num)

/-- The vectors. -/
theorem vectors_near (hR : Single R) (hs : ∀ x, |sn x - Real.sin x| ≤ 1.2e-7) (hc : ∀ x, |cs x - Real.cos x| ≤ 1.2e-7)
    {x y : SphericalPV} (h : EclNear x y) {t T : ℝ} (hT : |t - T| ≤ 1.25e-5) (bT : |T| ≤ 201.01) :
    (∀ i, |moonEquator R sn cs t (ds2c6 R sn cs x).pos i - Sla.moonEquator T (Sla.ds2c6 y).pos i| ≤ 8.5e-7) ∧
    ∀ i, |moonEquator R sn cs t (ds2c6 R sn cs x).vel i - Sla.moonEquator T (Sla.ds2c6 y).vel i| ≤ 4.2e-12 := by
  obtain ⟨⟨p0, p1, p2⟩, ⟨b0, b1, b2⟩, ⟨v0, v1, v2⟩, ⟨c0, c1, c2⟩⟩ := ecliptic_near hR hs hc h
  have hdeg := deg_near hR
  have bdeg : |d2r| ≤ 0.0174532926 := lit_bd (by linarith [d2r_gt]) d2r_lt.le
  have o1 : |R 0.00013 - 0.00013| ≤ 7.9e-12 := hR.lit (B := 0.00013) (by norm_num) (by norm_num)
  have o2 : |R (R 0.00013 * t) - 0.00013 * T| ≤ 5e-9 := hR.mul (X := 0.00013) o1 hT (by norm_num) bT (by norm_num)
  have o3 : |R 23.45229 - 23.45229| ≤ 1.41e-6 := hR.lit (B := 23.45229) (by norm_num) (by norm_num)
  have bo : |23.45229 - 0.00013 * T| ≤ 23.5 := by
    have := abs_le.1 bT
    exact lit_bd (by linarith) (by linarith)
  have o4 : |R (R 23.45229 - R (R 0.00013 * t)) - (23.45229 - 0.00013 * T)| ≤ 2.83e-6 := hR.sub o3 o2 bo (by norm_num)
  have o5 : |R (R 1.745329252e-2 * R (R 23.45229 - R (R 0.00013 * t))) - d2r * (23.45229 - 0.00013 * T)| ≤ 1.1e-7 :=
    hR.mul hdeg o4 bdeg bo (by norm_num)
  have se := (sin_err hs o5).trans (show _ ≤ (2.3e-7 : ℝ) by norm_num)
  have ce := (cos_err hc o5).trans (show _ ≤ (2.3e-7 : ℝ) by norm_num)
  have bs := sin_le (d2r * (23.45229 - 0.00013 * T))
  have bc := cos_le (d2r * (23.45229 - 0.00013 * T))
  simp only [moonEquator, Sla.moonEquator]
  generalize sn (R (R 1.745329252e-2 * R (R 23.45229 - R (R 0.00013 * t)))) = s' at *
  generalize cs (R (R 1.745329252e-2 * R (R 23.45229 - R (R 0.00013 * t)))) = c' at *
  generalize Real.sin (d2r * (23.45229 - 0.00013 * T)) = s at *
  generalize Real.cos (d2r * (23.45229 - 0.00013 * T)) = c at *
  generalize ds2c6 R sn cs x = u at *
  generalize Sla.ds2c6 y = v at *
  clear o1 o2 o3 o4 o5 bo hdeg bdeg hT bT
  constructor
  · have m1 : |R (u.pos 1 * c') - v.pos 1 * c| ≤ 7.7e-7 := hR.mul p1 ce b1 bc (by norm_num)
    have m2 : |R (u.pos 2 * s') - v.pos 2 * s| ≤ 7.8e-8 := hR.mul p2 se b2 bs (by norm_num)
    have m3 : |R (u.pos 1 * s') - v.pos 1 * s| ≤ 7.7e-7 := hR.mul p1 se b1 bs (by norm_num)
    have m4 : |R (u.pos 2 * c') - v.pos 2 * c| ≤ 7.8e-8 := hR.mul p2 ce b2 bc (by norm_num)
    intro i
    fin_cases i
    · exact p0.trans (by norm_num)
    · exact hR.sub m1 m2 (sub_bd (mul_bd b1 bc le_rfl) (mul_bd b2 bs le_rfl) le_rfl) (by norm_num)
    · exact hR.add m3 m4 (add_bd (mul_bd b1 bs le_rfl) (mul_bd b2 bc le_rfl) le_rfl) (by norm_num)
  · have m1 : |R (u.vel 1 * c') - v.vel 1 * c| ≤ 3.76e-12 := hR.mul v1 ce c1 bc (by norm_num)
    have m2 : |R (u.vel 2 * s') - v.vel 2 * s| ≤ 4.1e-13 := hR.mul v2 se c2 bs (by norm_num)
    have m3 : |R (u.vel 1 * s') - v.vel 1 * s| ≤ 3.76e-12 := hR.mul v1 se c1 bs (by norm_num)
    have m4 : |R (u.vel 2 * c') - v.vel 2 * c| ≤ 4.1e-13 := hR.mul v2 ce c2 bc (by norm_num)
    intro i
    fin_cases i
    · exact v0.trans (by norm_num)
    · exact hR.sub m1 m2 (sub_bd (mul_bd c1 bc le_rfl) (mul_bd c2 bs le_rfl) le_rfl) (by norm_num)
    · exact hR.add m3 m4 (add_bd (mul_bd c1 bs le_rfl) (mul_bd c2 bc le_rfl) le_rfl) (by norm_num)

end
end Sla.Fp
