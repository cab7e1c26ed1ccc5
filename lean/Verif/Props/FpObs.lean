import Verif.Lemmas.FpErr64
import Verif.Model.FpObs
import Verif.Props.FpEarth

/-
Property theorems C105: radial velocities, air mass and the place of an observer in floating point.
-/
namespace Sla.Props
open Sla.Fp Real

private theorem mbd' {x y A B C : ℝ} (hx : |x| ≤ A) (hy : |y| ≤ B) (h : A * B ≤ C) : |x * y| ≤ C := by
  rw [abs_mul]
  exact (mul_le_mul hx hy (abs_nonneg _) ((abs_nonneg _).trans hx)).trans h

/-! ### Radial velocities -/

/-- C105: in single precision `rverot` is right to 1 mm/s for every latitude, star and sidereal time. -/
theorem C105_rverot (R : Rounding binary32) {sn cs : ℝ → ℝ} (hs : ∀ x, |sn x - sin x| ≤ 1.2e-7) (hc : ∀ x, |cs x - cos x| ≤ 1.2e-7)
    (phi : ℝ) (pos : Spherical) (stime : ℝ) (h : |stime| ≤ 6.3) (h' : |pos.a| ≤ 6.3) :
    |Fp.rverot R sn cs phi pos stime - Sla.rverot phi pos stime| ≤ 1e-6 := by
  have hR := R.single
  have a1 : |R (stime - pos.a) - (stime - pos.a)| ≤ 7.6e-7 :=
    hR.lit (B := 12.6) ((abs_sub _ _).trans (by norm_num at *; linarith)) (by norm_num)
  have a2 := sin_err hs a1
  have k : |R 0.4655 - 0.4655| ≤ 2.8e-8 := hR.lit (B := 0.4655) (by norm_num [abs_of_pos]) (by norm_num)
  have m1 : |R (R 0.4655 * cs phi) - 0.4655 * cos phi| ≤ 1.2e-7 :=
    hR.mul (X := 0.4655) (Y := 1) k (hc phi) (by norm_num [abs_of_pos]) (abs_cos_le_one _) (by norm_num)
  have b1 : |0.4655 * cos phi| ≤ 0.4655 := mbd' (A := 0.4655) (B := 1) (by norm_num [abs_of_pos]) (abs_cos_le_one _) (by norm_num)
  have m2 : |R (R (R 0.4655 * cs phi) * sn (R (stime - pos.a))) - 0.4655 * cos phi * sin (stime - pos.a)| ≤ 6e-7 :=
    hR.mul m1 a2 b1 (abs_sin_le_one _) (by norm_num)
  have b2 : |0.4655 * cos phi * sin (stime - pos.a)| ≤ 0.4655 := mbd' b1 (abs_sin_le_one _) (by norm_num)
  exact hR.mul m2 (hc pos.b) b2 (abs_cos_le_one _) (by norm_num)

private theorem dir_near {R : ℝ → ℝ} (hR : Single R) {sn cs : ℝ → ℝ} (hs : ∀ x, |sn x - sin x| ≤ 1.2e-7)
    (hc : ∀ x, |cs x - cos x| ≤ 1.2e-7) (dir : Spherical) :
    (∀ i, |Fp.dcs2c R sn cs dir.a dir.b i - Sla.dcs2c dir i| ≤ 3.1e-7) ∧
      Sla.dcs2c dir 0 ^ 2 + Sla.dcs2c dir 1 ^ 2 + Sla.dcs2c dir 2 ^ 2 = 1 := by
  constructor
  · intro i
    fin_cases i
    · exact hR.mul (X := 1) (Y := 1) (hc _) (hc _) (abs_cos_le_one _) (abs_cos_le_one _) (by norm_num)
    · exact hR.mul (X := 1) (Y := 1) (hs _) (hc _) (abs_sin_le_one _) (abs_cos_le_one _) (by norm_num)
    · exact (hs _).trans (by norm_num)
  · simp only [Sla.dcs2c, Matrix.cons_val]
    nlinarith [sin_sq_add_cos_sq dir.a, sin_sq_add_cos_sq dir.b]

private theorem rv_near (R : Rounding binary32) (D : Rounding binary64) {sn cs : ℝ → ℝ} (hs : ∀ x, |sn x - sin x| ≤ 1.2e-7)
    (hc : ∀ x, |cs x - cos x| ≤ 1.2e-7) (dir : Spherical) {v : Vec} {V : ℝ} (hV : ∀ i, |v i| ≤ V) (h1 : 1 ≤ V) :
    |Fp.dvdv R (floats R D v) (Fp.dcs2c R sn cs dir.a dir.b) - Sla.dvdv v (Sla.dcs2c dir)| ≤ 1.71e-6 * V := by
  obtain ⟨n1, n2⟩ := dir_near R.single hs hc dir
  have hf : ∀ i, |floats R D v i - v i| ≤ 6.1e-8 * V := fun i =>
    R.single.round (e := 3e-16 * V) ((D.double (v i)).trans (by have := hV i; norm_num at *; linarith)) (hV i)
      (by norm_num at *; linarith)
  refine (dot_dir_near R.single hf n1 hV (by norm_num at *; linarith) n2 (by norm_num at *; linarith)).trans ?_
  norm_num at *; linarith

/-- C105: in single precision the velocity corrections to the local standards of rest are right to 3 cm/s, and those to the
    galactic centre and the local group to 40 cm/s, for every direction. -/
theorem C105_rv (R : Rounding binary32) (D : Rounding binary64) {sn cs : ℝ → ℝ} (hs : ∀ x, |sn x - sin x| ≤ 1.2e-7)
    (hc : ∀ x, |cs x - cos x| ≤ 1.2e-7) (pos : Spherical) :
    |Fp.rvlsrd R D sn cs pos - Sla.rvlsrd pos| ≤ 3e-5 ∧ |Fp.rvlsrk R D sn cs pos - Sla.rvlsrk pos| ≤ 3e-5 ∧
    |Fp.rvgalc R D sn cs pos - Sla.rvgalc pos| ≤ 3e-4 ∧ |Fp.rvlg R D sn cs pos - Sla.rvlg pos| ≤ 4e-4 := by
  refine ⟨?_, ?_, ?_, ?_⟩
  · refine (rv_near R D hs hc pos (V := 14.6) (fun i => ?_) (by norm_num)).trans (by norm_num)
    fin_cases i <;> simp [abs_of_pos] <;> norm_num [abs_of_pos]
  · refine (rv_near R D hs hc pos (V := 17.4) (fun i => ?_) (by norm_num)).trans (by norm_num)
    fin_cases i <;> simp [abs_of_pos] <;> norm_num [abs_of_pos]
  · refine (rv_near R D hs hc pos (V := 164.4) (fun i => ?_) (by norm_num)).trans (by norm_num)
    fin_cases i <;> simp [abs_of_pos] <;> norm_num [abs_of_pos]
  · refine (rv_near R D hs hc pos (V := 224.1) (fun i => ?_) (by norm_num)).trans (by norm_num)
    fin_cases i <;> simp [abs_of_pos] <;> norm_num [abs_of_pos]

private theorem exact_lib (f : ℝ → ℝ) (e : ℝ) (he : 0 ≤ e) (x : ℝ) : |f x - f x| ≤ e := by rw [sub_self, abs_zero]; exact he

example (R : Rounding binary32) (D : Rounding binary64) : |Fp.rvlg R D sin cos ⟨1, -2⟩ - Sla.rvlg ⟨1, -2⟩| ≤ 4e-4 :=
  (C105_rv R D (exact_lib _ _ (by norm_num)) (exact_lib _ _ (by norm_num)) _).2.2.2
example (R : Rounding binary32) : |Fp.rverot R sin cos 0.5 ⟨1, -2⟩ 6 - Sla.rverot 0.5 ⟨1, -2⟩ 6| ≤ 1e-6 :=
  C105_rverot R (exact_lib _ _ (by norm_num)) (exact_lib _ _ (by norm_num)) _ _ _ (by norm_num [abs_of_pos]) (by norm_num)

/-! ### Air mass -/

private theorem cos_low : (0.0507 : ℝ) ≤ cos 1.52 := by
  have hp1 := pi_gt_d6
  have hp2 := pi_lt_d6
  rw [← sin_pi_div_two_sub]
  have h := sin_gt_sub_cube (x := π / 2 - 1.52) (by norm_num at *; linarith)
  have h2 : (0.05079 : ℝ) ≤ π / 2 - 1.52 := by norm_num at *; linarith
  have h3 : π / 2 - 1.52 ≤ 0.0508 := by norm_num at *; linarith
  have h4 : (π / 2 - 1.52) ^ 3 ≤ 0.0508 ^ 3 := pow_le_pow_left₀ (by norm_num at *; linarith) h3 3
  norm_num at *; linarith

/-- C105: in double precision `airmas` is right to 4e-13 at every zenith distance. -/
theorem C105_airmas (R : Rounding binary64) {cs : ℝ → ℝ} (hc : ∀ x, |cs x - cos x| ≤ 2e-16) (zd : ℝ) :
    |Fp.airmas R cs zd - Sla.airmas zd| ≤ 4e-13 := by
  have hR := R.dbl
  have k0 : |R 1.52 - 1.52| ≤ 1.9e-16 := hR.lit (B := 1.52) (by norm_num [abs_of_pos]) (by norm_num)
  have hmin : |min (R 1.52) (abs zd) - min 1.52 (abs zd)| ≤ 1.9e-16 := (abs_min_sub_min_le_max _ _ _ _).trans (by
    rw [sub_self, abs_zero]; exact max_le k0 (by norm_num))
  have z0 : 0 ≤ min 1.52 |zd| := le_min (by norm_num) (abs_nonneg _)
  have z1 : min 1.52 |zd| ≤ 1.52 := min_le_left _ _
  simp only [Fp.airmas, Sla.airmas]
  generalize min (R 1.52) |zd| = w at *
  generalize min 1.52 |zd| = z at *
  have hp1 := pi_gt_d6
  have clow : (0.0507 : ℝ) ≤ cos z := cos_low.trans (cos_le_cos_of_nonneg_of_le_pi z0 (by norm_num at *; linarith) z1)
  have cup := cos_le_one z
  have hcz := cos_err hc hmin
  generalize cs w = c at *
  generalize cos z = C at *
  clear hc hmin k0 z0 z1 hp1
  have C0 : 0 < C := lt_of_lt_of_le (by norm_num) clow
  have s0 : 0 ≤ 1 / C - 1 := by rw [sub_nonneg, le_div_iff₀ C0]; linarith
  have s1 : 1 / C ≤ 19.73 := by rw [div_le_iff₀ C0]; norm_num at *; linarith
  have d1 : |R (1 / c) - 1 / C| ≤ 1.6e-13 := by
    refine hR.div (m := 0.0507) (Q := 19.73) (E := 1.52e-13) (show |(1 : ℝ) - 1| ≤ 0 by simp) hcz ?_ (by norm_num) ?_ (by norm_num) (by norm_num)
    · rwa [abs_of_pos C0]
    · rw [abs_of_pos (by positivity)]; exact s1
  have d2 : |R (R (1 / c) - 1) - (1 / C - 1)| ≤ 1.63e-13 := by
    refine hR.sub (B := 18.73) d1 (show |(1 : ℝ) - 1| ≤ 0 by simp) ?_ (by norm_num)
    rw [abs_of_nonneg s0]; norm_num at *; linarith
  have sB : |1 / C - 1| ≤ 18.73 := by rw [abs_of_nonneg s0]; norm_num at *; linarith
  have s2 : 1 / C - 1 ≤ 18.73 := (le_abs_self _).trans sB
  generalize R (R (1 / c) - 1) = s at *
  generalize 1 / C - 1 = S at *
  clear d1 s1 hcz clow cup C0
  have k1 : |R 0.0008083 - 0.0008083| ≤ 1e-19 := hR.lit (B := 0.0008083) (by norm_num [abs_of_pos]) (by norm_num)
  have k2 : |R 0.002875 - 0.002875| ≤ 4e-19 := hR.lit (B := 0.002875) (by norm_num [abs_of_pos]) (by norm_num)
  have k3 : |R 0.9981833 - 0.9981833| ≤ 1.2e-16 := hR.lit (B := 0.9981833) (by norm_num [abs_of_pos]) (by norm_num)
  have p1 : |R (R 0.0008083 * s) - 0.0008083 * S| ≤ 1.37e-16 :=
    hR.mul (X := 0.0008083) (Y := 18.73) k1 d2 (by norm_num [abs_of_pos]) sB (by norm_num)
  have p2 : |R (R 0.002875 + R (R 0.0008083 * s)) - (0.002875 + 0.0008083 * S)| ≤ 1.5e-16 := by
    refine hR.add (B := 0.0181) k2 p1 ?_ (by norm_num)
    rw [abs_of_nonneg (by positivity)]; norm_num at *; linarith
  have q0 : 0 ≤ 0.002875 + 0.0008083 * S := by positivity
  have q1 : 0.002875 + 0.0008083 * S ≤ 0.0181 := by norm_num at *; linarith
  have p3 : |R (s * R (R 0.002875 + R (R 0.0008083 * s))) - S * (0.002875 + 0.0008083 * S)| ≤ 5.9e-15 := by
    refine hR.mul (X := 18.73) (Y := 0.0181) d2 p2 sB ?_ (by norm_num)
    rwa [abs_of_nonneg q0]
  have q2 : S * (0.002875 + 0.0008083 * S) ≤ 0.34 := (mul_le_mul s2 q1 q0 (by norm_num)).trans (by norm_num)
  have q3 : 0 ≤ S * (0.002875 + 0.0008083 * S) := mul_nonneg s0 q0
  have q4 : |0.9981833 - S * (0.002875 + 0.0008083 * S)| ≤ 1 := by rw [abs_le]; norm_num at *; constructor <;> linarith
  have p4 : |R (R 0.9981833 - R (s * R (R 0.002875 + R (R 0.0008083 * s)))) - (0.9981833 - S * (0.002875 + 0.0008083 * S))| ≤ 6.2e-15 :=
    hR.sub (B := 1) k3 p3 q4 (by norm_num)
  have p5 : |R (s * R (R 0.9981833 - R (s * R (R 0.002875 + R (R 0.0008083 * s))))) -
      S * (0.9981833 - S * (0.002875 + 0.0008083 * S))| ≤ 2.9e-13 := hR.mul (X := 18.73) (Y := 1) d2 p4 sB q4 (by norm_num)
  refine hR.add (B := 19.73) (show |(1 : ℝ) - 1| ≤ 0 by simp) p5 ?_ (by norm_num)
  refine (abs_add_le _ _).trans ?_
  have := mbd' sB q4 (C := 18.73) (by norm_num)
  norm_num at *; linarith

example (R : Rounding binary64) : |Fp.airmas R cos (-1.5) - Sla.airmas (-1.5)| ≤ 4e-13 := C105_airmas R (exact_lib _ _ (by norm_num)) _

/-! ### The place of the observer -/

private theorem flat : (0.9933 : ℝ) ≤ Sla.geocB ∧ Sla.geocB ≤ 0.9934 ∧ Sla.geocB2 = 1 - 1 / 298.257 ∧ (0.996 : ℝ) ≤ Sla.geocB2 ∧ Sla.geocB2 ≤ 1 := by
  unfold Sla.geocB Sla.geocB2
  norm_num

private theorem flat_near {R : ℝ → ℝ} (hR : Dbl R) : |Fp.geocB R - Sla.geocB| ≤ 3.7e-16 := by
  obtain ⟨-, -, e, b0, b1⟩ := flat
  have k : |R 298.257 - 298.257| ≤ 3.6e-14 := hR.lit (B := 298.257) (by norm_num [abs_of_pos]) (by norm_num)
  have f : |R (1 / R 298.257) - 1 / 298.257| ≤ 9e-19 :=
    hR.div (m := 298) (Q := 0.00336) (E := 4.1e-19) (show |(1 : ℝ) - 1| ≤ 0 by simp) k (by norm_num [abs_of_pos]) (by norm_num)
      (by norm_num [abs_of_pos]) (by norm_num) (by norm_num)
  have b : |R (1 - R (1 / R 298.257)) - Sla.geocB2| ≤ 1.21e-16 := by
    rw [e]
    exact hR.sub (B := 0.9967) (show |(1 : ℝ) - 1| ≤ 0 by simp) f (by norm_num [abs_of_pos]) (by norm_num)
  have hb : |Sla.geocB2| ≤ 1 := by rw [abs_of_nonneg (by norm_num at *; linarith)]; exact b1
  exact hR.mul b b hb hb (by norm_num)

private theorem root_near {R : ℝ → ℝ} (hR : Dbl R) {x X : ℝ} (h : |x - X| ≤ 1.66e-15) (h0 : 0.993 ≤ X) (h1 : X ≤ 1) :
    |R (sqrt x) - sqrt X| ≤ 9.7e-16 := by
  have s1 : sqrt X ≤ 1 := sqrt_le_iff.2 ⟨by norm_num, by rw [one_pow]; exact h1⟩
  have s0 : (0.996 : ℝ) ≤ sqrt X := le_sqrt_of_sq_le (by norm_num at *; linarith)
  refine hR.round (e := 8.4e-16) ?_ (B := 1) (by rw [abs_of_nonneg (sqrt_nonneg _)]; exact s1) (by norm_num)
  have hx0 : 0.992 ≤ x := by rw [abs_le] at h; norm_num at *; linarith [h.1]
  have s2 : (0.995 : ℝ) ≤ sqrt x := le_sqrt_of_sq_le (by norm_num at *; linarith)
  have e : (sqrt x - sqrt X) * (sqrt x + sqrt X) = x - X := by
    have a := mul_self_sqrt (show 0 ≤ x by norm_num at *; linarith)
    have b := mul_self_sqrt (show 0 ≤ X by norm_num at *; linarith)
    linear_combination a - b
  have hs : 1.99 ≤ sqrt x + sqrt X := by norm_num at *; linarith
  have hp : 0 < sqrt x + sqrt X := by norm_num at *; linarith
  rw [← e, abs_mul, abs_of_pos hp] at h
  have := abs_nonneg (sqrt x - sqrt X)
  norm_num at *
  nlinarith

/-- C105: in double precision `geoc` gives both distances to 1.3e-19 AU (20 nm), for every latitude and heights within a thousand
    kilometres of the surface. -/
theorem C105_geoc (R : Rounding binary64) {sn cs : ℝ → ℝ} (hs : ∀ x, |sn x - sin x| ≤ 2e-16) (hc : ∀ x, |cs x - cos x| ≤ 2e-16)
    (latitude : ℝ) {height : ℝ} (hh : |height| ≤ 1e6) :
    |(Fp.geoc R sn cs latitude height).1 - (Sla.geoc latitude height).1| ≤ 1e-19 ∧
    |(Fp.geoc R sn cs latitude height).2 - (Sla.geoc latitude height).2| ≤ 1.3e-19 ∧
    |(Sla.geoc latitude height).1| ≤ 5e-5 := by
  have hR := R.dbl
  have hB := flat_near hR
  obtain ⟨f0, f1, -⟩ := flat
  simp only [Fp.geoc, Sla.geoc]
  have n1 := hs latitude
  have n2 := hc latitude
  have bs := abs_sin_le_one latitude
  have bc := abs_cos_le_one latitude
  have hsc := sin_sq_add_cos_sq latitude
  generalize sn latitude = s at *
  generalize cs latitude = c at *
  generalize sin latitude = S at *
  generalize cos latitude = C at *
  generalize Fp.geocB R = b at *
  generalize Sla.geocB = B at *
  clear hs hc
  have bB : |B| ≤ 0.9934 := by rw [abs_of_nonneg (by norm_num at *; linarith)]; exact f1
  have g1 : |R (c * c) - C * C| ≤ 5.21e-16 := hR.mul n2 n2 bc bc (by norm_num)
  have g2 : |R (b * s) - B * S| ≤ 6.9e-16 := hR.mul hB n1 bB bs (by norm_num)
  have bBS : |B * S| ≤ 0.9934 := mbd' bB bs (by norm_num)
  have g3 : |R (R (b * s) * s) - B * S * S| ≤ 1.01e-15 := hR.mul g2 n1 bBS bs (by norm_num)
  have hX : 0.993 ≤ C * C + B * S * S ∧ C * C + B * S * S ≤ 1 := by
    have hS := mul_self_nonneg S
    have hC := mul_self_nonneg C
    norm_num at *
    constructor <;> nlinarith
  have g4 : |R (R (c * c) + R (R (b * s) * s)) - (C * C + B * S * S)| ≤ 1.66e-15 := by
    refine hR.add (B := 1) g1 g3 ?_ (by norm_num)
    rw [abs_of_nonneg (by norm_num at *; linarith [hX.1])]; exact hX.2
  have g5 := root_near hR g4 hX.1 hX.2
  have r0 : (0.996 : ℝ) ≤ sqrt (C * C + B * S * S) := le_sqrt_of_sq_le (by norm_num at *; linarith [hX.1])
  generalize R (sqrt (R (R (c * c) + R (R (b * s) * s)))) = d at *
  generalize sqrt (C * C + B * S * S) = D at *
  have D0 : 0 < D := lt_of_lt_of_le (by norm_num) r0
  have bD : |1 / D| ≤ 1.0041 := by
    rw [abs_of_pos (by positivity), div_le_iff₀ D0]; norm_num at *; linarith
  have g6 : |R (1 / d) - 1 / D| ≤ 1.11e-15 :=
    hR.div (m := 0.996) (Q := 1.0041) (E := 9.8e-16) (show |(1 : ℝ) - 1| ≤ 0 by simp) g5 (by rwa [abs_of_pos D0]) (by norm_num) bD
      (by norm_num) (by norm_num)
  have g7 : |R (b * R (1 / d)) - B * (1 / D)| ≤ 1.6e-15 := hR.mul hB g6 bB bD (by norm_num)
  have bBD : |B * (1 / D)| ≤ 1.0041 := mbd' bB bD (by norm_num)
  clear g1 g2 g3 g4 g5 hX hsc bBS f0 f1 r0 D0
  generalize R (b * R (1 / d)) = u at *
  generalize B * (1 / D) = U at *
  generalize R (1 / d) = v at *
  generalize 1 / D = V at *
  have k1 : |R 6378140 - 6378140| ≤ 7.7e-10 := hR.lit (B := 6378140) (by norm_num) (by norm_num)
  have k2 : |R 1.49597870e11 - 1.49597870e11| ≤ 1.8e-5 := hR.lit (B := 1.49597870e11) (by norm_num) (by norm_num)
  unfold geocRadius geocAU
  have last : ∀ {v V s S : ℝ}, |v - V| ≤ 1.6e-15 → |V| ≤ 1.0041 → |s - S| ≤ 2e-16 → |S| ≤ 1 →
      |R (R (R (R (R 6378140 * v) + height) * s) / R 1.49597870e11) - (6378140 * V + height) * S / 1.49597870e11| ≤ 1.3e-19 ∧
      (|v - V| ≤ 1.11e-15 → |R (R (R (R (R 6378140 * v) + height) * s) / R 1.49597870e11) -
        (6378140 * V + height) * S / 1.49597870e11| ≤ 1e-19) ∧
      |(6378140 * V + height) * S / 1.49597870e11| ≤ 5e-5 := by
    intro v V s S hv bV hs bS
    have b1 : |6378140 * V| ≤ 6404291 := mbd' (A := 6378140) (by norm_num) bV (by norm_num)
    have b2 : |6378140 * V + height| ≤ 7404291 := (abs_add_le _ _).trans (by norm_num at *; linarith)
    have b3 : |(6378140 * V + height) * S| ≤ 7404291 := mbd' b2 bS (by norm_num)
    have b4 : |(6378140 * V + height) * S / 1.49597870e11| ≤ 5e-5 := by
      rw [abs_div, abs_of_pos (by norm_num : (0 : ℝ) < 1.49597870e11), div_le_iff₀ (by norm_num)]
      norm_num at *; linarith
    have gen : ∀ δ η : ℝ, |v - V| ≤ δ → 0 ≤ δ → δ ≤ 1e-10 → 6378140 * δ * 1.00001 + 5e-9 ≤ η → η * 1 ≤ 1e-7 →
        |R (R (R (R (R 6378140 * v) + height) * s) / R 1.49597870e11) - (6378140 * V + height) * S / 1.49597870e11| ≤
          (η + 1e-9) / 1.4959e11 + 6.1e-21 := by
      intro δ η hd d0 d1 hη h7
      have e1 : |R (R 6378140 * v) - 6378140 * V| ≤ 6378140 * δ * 1.000001 + 1.56e-9 :=
        hR.mul (X := 6378140) (Y := 1.0041) k1 hd (by norm_num) bV (by norm_num at *; linarith)
      have e2 : |R (R (R 6378140 * v) + height) - (6378140 * V + height)| ≤ 6378140 * δ * 1.000002 + 2.5e-9 :=
        hR.add e1 (show |height - height| ≤ 0 by simp) b2 (by norm_num at *; linarith)
      have e3 : |R (R (R (R 6378140 * v) + height) * s) - (6378140 * V + height) * S| ≤ η :=
        hR.mul e2 hs b2 bS (by norm_num at *; linarith)
      refine hR.div (m := 1.49597870e11) (Q := 5e-5) (E := (η + 1e-9) / 1.4959e11) e3 k2 (by norm_num) (by norm_num) b4 ?_ ?_
      · rw [div_mul_eq_mul_div, le_div_iff₀ (by norm_num)]
        have : 0 ≤ η := (abs_nonneg _).trans e3
        norm_num at *; linarith
      · have : (η + 1e-9) / 1.4959e11 ≤ 1e-15 := by rw [div_le_iff₀ (by norm_num)]; norm_num at *; linarith
        norm_num at *; linarith
    refine ⟨(gen 1.6e-15 1.53e-8 hv (by norm_num) (by norm_num) (by norm_num) (by norm_num)).trans (by norm_num),
      fun h => (gen 1.11e-15 1.21e-8 h (by norm_num) (by norm_num) (by norm_num) (by norm_num)).trans (by norm_num), b4⟩
  obtain ⟨-, l1, l2⟩ := last (g6.trans (by norm_num)) bD n2 bc
  exact ⟨l1 g6, (last g7 bBD n1 bs).1, l2⟩

/-- C105: in double precision `pvobs` gives each coordinate of the position to 1.3e-19 AU and of the velocity to 1e-23 AU per second. -/
theorem C105_pvobs (R : Rounding binary64) {sn cs : ℝ → ℝ} (hs : ∀ x, |sn x - sin x| ≤ 2e-16) (hc : ∀ x, |cs x - cos x| ≤ 2e-16)
    (latitude : ℝ) {height : ℝ} (hh : |height| ≤ 1e6) (lst : ℝ) (i : Fin 3) :
    |(Fp.pvobs R sn cs latitude height lst).pos i - (Sla.pvobs latitude height lst).pos i| ≤ 1.3e-19 ∧
    |(Fp.pvobs R sn cs latitude height lst).vel i - (Sla.pvobs latitude height lst).vel i| ≤ 1e-23 := by
  have hR := R.dbl
  obtain ⟨h1, h2, h3⟩ := C105_geoc R hs hc latitude hh
  simp only [Fp.pvobs, Sla.pvobs, siderealRate]
  generalize Fp.geoc R sn cs latitude height = g at *
  generalize Sla.geoc latitude height = G at *
  have k : |R 7.292115855306589e-5 - 7.292115855306589e-5| ≤ 8.8e-21 :=
    hR.lit (B := 7.292115855306589e-5) (by norm_num [abs_of_pos]) (by norm_num)
  have v : |R (R 7.292115855306589e-5 * g.1) - 7.292115855306589e-5 * G.1| ≤ 8.3e-24 :=
    hR.mul (X := 7.3e-5) (Y := 5e-5) k h1 (by norm_num [abs_of_pos]) h3 (by norm_num)
  have bv : |7.292115855306589e-5 * G.1| ≤ 3.65e-9 := mbd' (A := 7.3e-5) (by norm_num [abs_of_pos]) h3 (by norm_num)
  have v' : |-R (R 7.292115855306589e-5 * g.1) - -(7.292115855306589e-5 * G.1)| ≤ 8.3e-24 := by
    rw [neg_sub_neg, abs_sub_comm]; exact v
  fin_cases i
  · exact ⟨hR.mul h1 (hc _) h3 (abs_cos_le_one _) (by norm_num),
      hR.mul (X := 3.65e-9) (Y := 1) v' (hs _) (by rw [abs_neg]; exact bv) (abs_sin_le_one _) (by norm_num)⟩
  · exact ⟨hR.mul h1 (hs _) h3 (abs_sin_le_one _) (by norm_num), hR.mul v (hc _) bv (abs_cos_le_one _) (by norm_num)⟩
  · refine ⟨h2, ?_⟩
    show |(0 : ℝ) - 0| ≤ _
    norm_num

example (R : Rounding binary64) : |(Fp.pvobs R sin cos 0.5 4200 3).pos 0 - (Sla.pvobs 0.5 4200 3).pos 0| ≤ 1.3e-19 :=
  (C105_pvobs R (exact_lib _ _ (by norm_num)) (exact_lib _ _ (by norm_num)) 0.5 (by norm_num) 3 0).1
example (R : Rounding binary64) : |(Fp.geoc R sin cos 0.5 (-400)).2 - (Sla.geoc 0.5 (-400)).2| ≤ 1.3e-19 :=
  (C105_geoc R (exact_lib _ _ (by norm_num)) (exact_lib _ _ (by norm_num)) 0.5 (by norm_num)).2.1

end Sla.Props
