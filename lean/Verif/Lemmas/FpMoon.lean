import Verif.Lemmas.FpErr
import Verif.Lemmas.FpEarth
import Verif.Model.FpMoon
import Mathlib.Analysis.Real.Pi.Bounds
import Mathlib.Algebra.BigOperators.Group.List.Basic

/-
Error analysis of `moon` in single precision.
-/
namespace Sla.Fp
open Real (pi)

private theorem sin_le (x : ℝ) : |Real.sin x| ≤ 1 := Real.abs_sin_le_one x
private theorem cos_le (x : ℝ) : |Real.cos x| ≤ 1 := Real.abs_cos_le_one x

private theorem add_bd {x y A B C : ℝ} (hx : |x| ≤ A) (hy : |y| ≤ B) (h : A + B ≤ C) : |x + y| ≤ C :=
  (abs_add_le x y).trans ((add_le_add hx hy).trans h)
private theorem sub_bd {x y A B C : ℝ} (hx : |x| ≤ A) (hy : |y| ≤ B) (h : A + B ≤ C) : |x - y| ≤ C :=
  (abs_sub x y).trans ((add_le_add hx hy).trans h)
private theorem mul_bd {x y A B C : ℝ} (hx : |x| ≤ A) (hy : |y| ≤ B) (h : A * B ≤ C) : |x * y| ≤ C := by
  rw [abs_mul]
  exact (mul_le_mul hx hy (abs_nonneg _) ((abs_nonneg _).trans hx)).trans h
private theorem lit_bd {x A : ℝ} (h1 : -A ≤ x) (h2 : x ≤ A) : |x| ≤ A := abs_le.2 ⟨h1, h2⟩

/-! ### Conversion factors -/

theorem d2r_gt : 0.0174532925 < d2r := by
  have := Real.pi_gt_d20; unfold d2r; linarith
theorem d2r_lt : d2r < 0.0174532926 := by
  have := Real.pi_lt_d20; unfold d2r; linarith

theorem deg_near {R : ℝ → ℝ} (hR : Single R) : |R 1.745329252e-2 - d2r| ≤ 1.06e-9 := by
  refine hR.round (e := 1e-11) (B := 0.0174532926) ?_ ?_ (by norm_num)
  · have := Real.pi_gt_d20
    have := Real.pi_lt_d20
    unfold d2r
    exact lit_bd (by linarith) (by linarith)
  · have := d2r_gt
    have := d2r_lt
    exact lit_bd (by linarith) (by linarith)

theorem moonRate_bd : 9.6527435e-12 < moonRate ∧ moonRate < 9.6527436e-12 := by
  have h1 := Real.pi_gt_d20
  have h2 := Real.pi_lt_d20
  have e : moonRate = pi ^ 2 / (180 ^ 2 * (86400 * 365.25)) := by unfold moonRate d2r; ring
  rw [e]
  constructor
  · rw [lt_div_iff₀ (by norm_num)]
    nlinarith
  · rw [div_lt_iff₀ (by norm_num)]
    nlinarith

theorem rate_near {R : ℝ → ℝ} (hR : Single R) : |R 9.652743551e-12 - moonRate| ≤ 5.9e-19 := by
  obtain ⟨h1, h2⟩ := moonRate_bd
  refine hR.round (e := 1e-20) (B := 9.6527436e-12) ?_ ?_ (by norm_num)
  · have h1 := Real.pi_gt_d20
    have h2 := Real.pi_lt_d20
    have e : moonRate = pi ^ 2 / (180 ^ 2 * (86400 * 365.25)) := by unfold moonRate d2r; ring
    rw [e]
    refine lit_bd ?_ ?_
    · rw [neg_le_sub_iff_le_add, div_le_iff₀ (by norm_num)]
      nlinarith
    · rw [sub_le_iff_le_add, ← sub_le_iff_le_add', le_div_iff₀ (by norm_num)]
      nlinarith
  · exact lit_bd (by linarith) (by linarith)

/-! ### The fundamental arguments -/

/-- Reduction to within a turn and conversion to radians. -/
theorem reduce_near {R : ℝ → ℝ} (hR : Single R) {A X e : ℝ} (hA : |A - X| ≤ e) (he : e ≤ 0.02) :
    ∃ k : ℤ, |R (R 1.745329252e-2 * cfmod A 360) - d2r * (X + 360 * k)| ≤ 0.0174533 * e + 8e-7 ∧
      |d2r * (X + 360 * k)| ≤ 6.3 := by
  have he0 : 0 ≤ e := (abs_nonneg _).trans hA
  refine ⟨-ctrunc (A / 360), ?_⟩
  have hc := (abs_cfmod A 360 (by norm_num)).2.le
  have e1 : X + 360 * ((-ctrunc (A / 360) : ℤ) : ℝ) = cfmod A 360 - (A - X) := by unfold cfmod; push_cast; ring
  rw [e1]
  have h1 := d2r_gt
  have h2 := d2r_lt
  have hd : |d2r| ≤ 0.0174532926 := lit_bd (by linarith) (by linarith)
  have b1 : |d2r * (cfmod A 360 - (A - X))| ≤ 6.29 := mul_bd hd (sub_bd hc hA le_rfl) (by linarith)
  refine ⟨?_, b1.trans (by norm_num)⟩
  refine hR.round (e := 0.0174532926 * e + 1.06e-9 * 360) ?_ b1 (by linarith)
  have e2 : R 1.745329252e-2 * cfmod A 360 - d2r * (cfmod A 360 - (A - X)) =
      d2r * (A - X) + (R 1.745329252e-2 - d2r) * cfmod A 360 := by ring
  rw [e2]
  exact add_bd (mul_bd hd hA le_rfl) (mul_bd (deg_near hR) hc le_rfl) le_rfl

/-- The arguments of the Moon. -/
theorem arg_near {R : ℝ → ℝ} (hR : Single R) (h360 : R 360 = 360) {yf t Y T c0 cI cF CF : ℝ} (hyf : |yf - Y| ≤ 2.6e-7)
    (hT : |t - T| ≤ 1.25e-5) (bY : -0.002 ≤ Y) (bY' : Y ≤ 1.01) (bT : -0.002 ≤ T) (bT' : T ≤ 201.01)
    (h0 : |c0| ≤ 360) (hI : |cI| ≤ 4680) (hF : |cF| ≤ 152.03) (hCF : |CF - cF| ≤ 9.2e-6) :
    ∃ k : ℤ, |R (R 1.745329252e-2 * cfmod (R (R (R c0 + R (R cI * yf)) + R (CF * t))) (R 360)) -
        d2r * (c0 + cI * Y + cF * T + 360 * k)| ≤ 1.74e-4 ∧ |d2r * (c0 + cI * Y + cF * T + 360 * k)| ≤ 6.3 := by
  rw [h360]
  have bT'' : |T| ≤ 201.01 := lit_bd (by linarith) bT'
  have bYa : |Y| ≤ 1.01 := lit_bd (by linarith) bY'
  have l0 : |R c0 - c0| ≤ 2.17e-5 := hR.lit h0 (by norm_num)
  have lI : |R cI - cI| ≤ 2.81e-4 := hR.lit hI (by norm_num)
  have m1 : |R (R cI * yf) - cI * Y| ≤ 1.79e-3 := hR.mul lI hyf hI bYa (by norm_num)
  have b1 : |c0 + cI * Y| ≤ 5090 := add_bd h0 (mul_bd hI bYa le_rfl) (by norm_num)
  have m2 : |R (R c0 + R (R cI * yf)) - (c0 + cI * Y)| ≤ 2.12e-3 := hR.add l0 m1 b1 (by norm_num)
  have m3 : |R (CF * t) - cF * T| ≤ 5.6e-3 := hR.mul hCF hT hF bT'' (by norm_num)
  have m4 : |R (R (R c0 + R (R cI * yf)) + R (CF * t)) - (c0 + cI * Y + cF * T)| ≤ 9.88e-3 :=
    hR.add m2 m3 (add_bd b1 (mul_bd hF bT'' le_rfl) le_rfl) (by norm_num)
  obtain ⟨k, h1, h2⟩ := reduce_near hR m4 (by norm_num)
  exact ⟨k, h1.trans (by norm_num), h2⟩

/-- The argument of the Sun. -/
theorem em_near {R : ℝ → ℝ} (hR : Single R) (h360 : R 360 = 360) {t T : ℝ}
    (hT : |t - T| ≤ 1.25e-5) (bT : -0.002 ≤ T) (bT' : T ≤ 201.01) :
    ∃ k : ℤ, |R (R 1.745329252e-2 * cfmod (R (R 358.475833 + R (R 359.990498 * t))) (R 360)) -
        d2r * (358.475833 + 359.990498 * T + 360 * k)| ≤ 3.1e-4 ∧
      |d2r * (358.475833 + 359.990498 * T + 360 * k)| ≤ 6.3 := by
  rw [h360]
  have bT'' : |T| ≤ 201.01 := lit_bd (by linarith) bT'
  have l0 : |R 358.475833 - 358.475833| ≤ 2.16e-5 := hR.lit (B := 358.475833) (by norm_num) (by norm_num)
  have lI : |R 359.990498 - 359.990498| ≤ 2.16e-5 := hR.lit (B := 359.990498) (by norm_num) (by norm_num)
  have m1 : |R (R 359.990498 * t) - 359.990498 * T| ≤ 1.319e-2 :=
    hR.mul (X := 359.990498) lI hT (by norm_num) bT'' (by norm_num)
  have m2 : |R (R 358.475833 + R (R 359.990498 * t)) - (358.475833 + 359.990498 * T)| ≤ 1.76e-2 :=
    hR.add (B := 72721) l0 m1 (add_bd (A := 358.475833) (by norm_num) (mul_bd (A := 359.990498) (by norm_num) bT'' le_rfl)
      (by norm_num)) (by norm_num)
  obtain ⟨k, h1, h2⟩ := reduce_near hR m2 (by norm_num)
  exact ⟨k, h1.trans (by norm_num), h2⟩

/-! ### The series -/

/-- Sums with errors proportional to the size of the terms. -/
theorem Single.wadd {R : ℝ → ℝ} (hR : Single R) {a b x y wa wb δa δb : ℝ} (ha : |a - x| ≤ δa) (hb : |b - y| ≤ δb)
    (hx : |x| ≤ wa) (hy : |y| ≤ wb) (h1 : δa ≤ 0.001 * wa + 1e-30) (h2 : δb ≤ 0.001 * wb + 1e-30) :
    |R (a + b) - (x + y)| ≤ δa + δb + 6.01e-8 * (wa + wb) + 1e-36 := by
  have n1 := (abs_nonneg _).trans hx
  have n2 := (abs_nonneg _).trans hy
  refine hR.round (e := δa + δb) (B := wa + wb) ?_ (add_bd hx hy le_rfl) (by linarith)
  rw [add_sub_add_comm]
  exact add_bd ha hb le_rfl

theorem Single.wmul {R : ℝ → ℝ} (hR : Single R) {a x wa δa : ℝ} (k : ℤ) (ha : |a - x| ≤ δa) (hx : |x| ≤ wa)
    (h1 : δa ≤ 0.001 * wa) :
    |R (k * a) - k * x| ≤ |k| * (δa + 6.01e-8 * wa) + 1e-40 ∧ |k * x| ≤ |k| * wa := by
  have h0 : (0 : ℝ) ≤ |(k : ℝ)| := abs_nonneg _
  have h2 : |(k : ℝ) * x| ≤ |(k : ℝ)| * wa := mul_bd le_rfl hx le_rfl
  push_cast
  refine ⟨?_, h2⟩
  have h3 : |(k : ℝ) * a - k * x| ≤ |(k : ℝ)| * δa := by rw [← mul_sub]; exact mul_bd le_rfl ha le_rfl
  refine hR.round h3 h2 ?_
  have := mul_le_mul_of_nonneg_left h1 h0
  have := (abs_nonneg _).trans h2
  linarith

/-- Bound on the error of the argument of a term, in millionths of a radian. -/
def thetaErr (k : MoonTerm) : ℤ := |k.m| * 312 + (|k.mp| + |k.d| + |k.f|) * 176

/-- Bound on the rate of a term, in degrees per year. -/
def rateBd (k : MoonTerm) : ℤ := |k.m| * 360 + |k.mp| * 4772 + |k.d| * 4453 + |k.f| * 4833

theorem four_near {R : ℝ → ℝ} (hR : Single R) {a1 a2 a3 a4 x1 x2 x3 x4 w1 w2 w3 w4 d1 d2 d3 d4 : ℝ} (k1 k2 k3 k4 : ℤ)
    (h1 : |a1 - x1| ≤ d1) (h2 : |a2 - x2| ≤ d2) (h3 : |a3 - x3| ≤ d3) (h4 : |a4 - x4| ≤ d4)
    (b1 : |x1| ≤ w1) (b2 : |x2| ≤ w2) (b3 : |x3| ≤ w3) (b4 : |x4| ≤ w4)
    (c1 : d1 ≤ 0.0002 * w1) (c2 : d2 ≤ 0.0002 * w2) (c3 : d3 ≤ 0.0002 * w3) (c4 : d4 ≤ 0.0002 * w4) :
    |R (R (R (R (k1 * a1) + R (k2 * a2)) + R (k3 * a3)) + R (k4 * a4)) - (k1 * x1 + k2 * x2 + k3 * x3 + k4 * x4)| ≤
      |k1| * (d1 + 2.5e-7 * w1) + |k2| * (d2 + 2.5e-7 * w2) + |k3| * (d3 + 2.5e-7 * w3) + |k4| * (d4 + 2.5e-7 * w4) + 1e-30 ∧
    |k1 * x1 + k2 * x2 + k3 * x3 + k4 * x4| ≤ |k1| * w1 + |k2| * w2 + |k3| * w3 + |k4| * w4 := by
  obtain ⟨m1, n1⟩ := hR.wmul k1 h1 b1 (by linarith [abs_nonneg x1])
  obtain ⟨m2, n2⟩ := hR.wmul k2 h2 b2 (by linarith [abs_nonneg x2])
  obtain ⟨m3, n3⟩ := hR.wmul k3 h3 b3 (by linarith [abs_nonneg x3])
  obtain ⟨m4, n4⟩ := hR.wmul k4 h4 b4 (by linarith [abs_nonneg x4])
  have p : ∀ (k : ℤ) {d w : ℝ}, d ≤ 0.0002 * w → 0 ≤ w → (|k| : ℝ) * d ≤ 0.0002 * ((|k| : ℝ) * w) ∧ 0 ≤ (|k| : ℝ) * w :=
    fun k d w h h' => ⟨by have := mul_le_mul_of_nonneg_left h (abs_nonneg (k : ℝ)); linarith,
      mul_nonneg (abs_nonneg _) h'⟩
  obtain ⟨p1, q1⟩ := p k1 c1 ((abs_nonneg _).trans b1)
  obtain ⟨p2, q2⟩ := p k2 c2 ((abs_nonneg _).trans b2)
  obtain ⟨p3, q3⟩ := p k3 c3 ((abs_nonneg _).trans b3)
  obtain ⟨p4, q4⟩ := p k4 c4 ((abs_nonneg _).trans b4)
  clear p h1 h2 h3 h4 b1 b2 b3 b4 c1 c2 c3 c4
  push_cast at *
  rw [mul_add] at m1 m2 m3 m4
  have r1 := hR.wadd m1 m2 n1 n2 (by linarith) (by linarith)
  have t1 := add_bd n1 n2 le_rfl
  have r2 := hR.wadd r1 m3 t1 n3 (by linarith) (by linarith)
  have t2 := add_bd t1 n3 le_rfl
  have r3 := hR.wadd r2 m4 t2 n4 (by linarith) (by linarith)
  exact ⟨r3.trans (by linarith), add_bd t2 n4 le_rfl⟩

/-- Arguments close to each other and within a turn. -/
structure ArgsNear (a b : MoonArgs) : Prop where
  em : |a.em - b.em| ≤ 3.1e-4
  emp : |a.emp - b.emp| ≤ 1.74e-4
  d : |a.d - b.d| ≤ 1.74e-4
  f : |a.f - b.f| ≤ 1.74e-4
  elp : |a.elp - b.elp| ≤ 1.74e-4
  bem : |b.em| ≤ 6.3
  bemp : |b.emp| ≤ 6.3
  bd : |b.d| ≤ 6.3
  bf : |b.f| ≤ 6.3
  belp : |b.elp| ≤ 6.3

theorem theta_near {R : ℝ → ℝ} (hR : Single R) {a b : MoonArgs} (h : ArgsNear a b) (k : MoonTerm) :
    |moonTheta R k a - k.theta b| ≤ 1e-6 * thetaErr k + 1e-30 := by
  obtain ⟨h1, -⟩ := four_near hR k.m k.mp k.d k.f h.em h.emp h.d h.f h.bem h.bemp h.bd h.bf (by norm_num) (by norm_num)
    (by norm_num) (by norm_num)
  refine h1.trans ?_
  unfold thetaErr
  push_cast
  linarith [abs_nonneg (k.m : ℝ), abs_nonneg (k.mp : ℝ), abs_nonneg (k.d : ℝ), abs_nonneg (k.f : ℝ)]

theorem thetad_near {R : ℝ → ℝ} (hR : Single R) (k : MoonTerm) :
    |moonThetad R k - k.thetad| ≤ 4e-7 * rateBd k + 1e-30 ∧ |k.thetad| ≤ rateBd k := by
  have l1 : |R 359.990498 - 359.990498| ≤ 2.2e-5 := hR.lit (B := 359.990498) (by norm_num) (by norm_num)
  have l2 : |R 4771.988491 - 4771.988491| ≤ 2.9e-4 := hR.lit (B := 4771.988491) (by norm_num) (by norm_num)
  have l3 : |R 4452.671142 - 4452.671142| ≤ 2.7e-4 := hR.lit (B := 4452.671142) (by norm_num) (by norm_num)
  have l4 : |R 4832.020251 - 4832.020251| ≤ 2.9e-4 := hR.lit (B := 4832.020251) (by norm_num) (by norm_num)
  obtain ⟨h1, h2⟩ := four_near hR k.m k.mp k.d k.f l1 l2 l3 l4 (w1 := 360) (w2 := 4772) (w3 := 4453) (w4 := 4833)
    (by norm_num) (by norm_num) (by norm_num) (by norm_num) (by norm_num) (by norm_num) (by norm_num) (by norm_num)
  have n1 := abs_nonneg (k.m : ℝ)
  have n2 := abs_nonneg (k.mp : ℝ)
  have n3 := abs_nonneg (k.d : ℝ)
  have n4 := abs_nonneg (k.f : ℝ)
  unfold rateBd
  push_cast at *
  exact ⟨h1.trans (by linarith), h2.trans (by linarith)⟩

/-- One term of a series and of its derivative; `s`, `c` stand for the sine and cosine. -/
theorem term_near {R : ℝ → ℝ} (hR : Single R) {k : MoonTerm} (hk : 1 ≤ |k.coeff|)
    (hk' : |k.coeff| ≤ 10000000) (hT : thetaErr k ≤ 3000) (hG : 1 ≤ rateBd k) (hG' : rateBd k ≤ 50000)
    {s s' : ℝ} (hs : |s' - s| ≤ 1.2e-7 + (1e-6 * thetaErr k + 1e-30)) (bs : |s| ≤ 1) :
    |R (R k.c * s') - k.c * s| ≤ 1e-12 * (|k.coeff| * (thetaErr k + 1) : ℤ) ∧
    |R (R (R k.c * s') * moonThetad R k) - k.c * s * k.thetad| ≤ 1e-12 * (|k.coeff| * rateBd k * (thetaErr k + 2) : ℤ) := by
  have hc : |k.c| = 1e-6 * (|k.coeff| : ℤ) := by
    unfold MoonTerm.c; push_cast; rw [abs_div]; norm_num; ring
  have hT0 : (0 : ℝ) ≤ thetaErr k := by
    have : 0 ≤ thetaErr k := by unfold thetaErr; positivity
    exact_mod_cast this
  have hk2 : (1 : ℝ) ≤ (|k.coeff| : ℤ) := by exact_mod_cast hk
  have hk3 : ((|k.coeff| : ℤ) : ℝ) ≤ 10000000 := by exact_mod_cast hk'
  have hT2 : (thetaErr k : ℝ) ≤ 3000 := by exact_mod_cast hT
  have hG2 : (1 : ℝ) ≤ rateBd k := by exact_mod_cast hG
  have hG3 : (rateBd k : ℝ) ≤ 50000 := by exact_mod_cast hG'
  obtain ⟨d1, d2⟩ := thetad_near hR k
  have hc' := hc.le
  rw [Int.cast_mul, Int.cast_mul, Int.cast_mul, Int.cast_add, Int.cast_add, Int.cast_one, Int.cast_ofNat]
  generalize ((|k.coeff| : ℤ) : ℝ) = C at *
  generalize (thetaErr k : ℝ) = T at *
  generalize (rateBd k : ℝ) = G at *
  have l : |R k.c - k.c| ≤ 6.01e-14 * C := hR.lit hc' (by linarith)
  have hCT : C * T ≤ C * 3000 := mul_le_mul_of_nonneg_left hT2 (by linarith)
  have hCT0 : 0 ≤ C * T := mul_nonneg (by linarith) hT0
  have m : |R (R k.c * s') - k.c * s| ≤ 1e-12 * (C * (T + 0.5)) := by
    refine hR.mul l hs hc' bs ?_
    nlinarith
  refine ⟨m.trans (by nlinarith), ?_⟩
  have bcs : |k.c * s| ≤ 1e-6 * C := mul_bd hc' bs (by linarith)
  refine hR.mul m d1 bcs d2 ?_
  have hCG : 1 ≤ C * G := by nlinarith
  have e1 : C * (T + 0.5) * (4e-7 * G + 1e-30) ≤ 5e-7 * (C * G * 3001) := by
    have h1 : C * (T + 0.5) ≤ C * 3001 := mul_le_mul_of_nonneg_left (by linarith) (by linarith)
    have h2 : (4e-7 * G + 1e-30) ≤ 5e-7 * G := by linarith
    calc C * (T + 0.5) * (4e-7 * G + 1e-30) ≤ C * 3001 * (5e-7 * G) :=
          mul_le_mul h1 h2 (by positivity) (by positivity)
      _ = _ := by ring
  have e2 : C * G * T ≤ C * G * 3000 := mul_le_mul_of_nonneg_left hT2 (by linarith)
  have e3 : 0 ≤ C * G * T := mul_nonneg (by linarith) hT0
  have e4 : C * 1e-30 ≤ C * G * 1e-30 := by nlinarith
  nlinarith

/-- A running sum. -/
theorem fold_near {R : ℝ → ℝ} (hR : Single R) {u u' : MoonTerm → ℝ} {er bd : MoonTerm → ℤ} {α β B : ℝ} (l : List MoonTerm) (h : ∀ k ∈ l, |u' k - u k| ≤ α * er k ∧ |u k| ≤ β * bd k) :
    ∀ (s s' e b : ℝ), |s' - s| ≤ e → |s| ≤ b → b + β * ((l.map bd).sum : ℤ) ≤ B →
      e + α * ((l.map er).sum : ℤ) + l.length * (6.1e-8 * B) ≤ 0.01 * B → 1e-20 ≤ B →
      |l.foldl (fun s k => R (s + u' k)) s' - l.foldl (fun s k => s + u k) s| ≤
        e + α * ((l.map er).sum : ℤ) + l.length * (6.1e-8 * B) ∧
      |l.foldl (fun s k => s + u k) s| ≤ b + β * ((l.map bd).sum : ℤ) := by
  induction l with
  | nil => intro s s' e b h1 h2 _ _ _; simpa using ⟨h1, h2⟩
  | cons k l ih =>
    intro s s' e b h1 h2 h3 h4 h5
    obtain ⟨hk1, hk2⟩ := h k (by simp)
    have hl : ∀ k ∈ l, |u' k - u k| ≤ α * er k ∧ |u k| ≤ β * bd k := fun k hk => h k (by simp [hk])
    have n1 : 0 ≤ α * ((l.map er).sum : ℤ) := by
      have : ∀ l : List MoonTerm, (∀ k ∈ l, |u' k - u k| ≤ α * er k ∧ |u k| ≤ β * bd k) →
          0 ≤ α * ((l.map er).sum : ℤ) := by
        intro l; induction l with
        | nil => intro _; simp
        | cons k l ih =>
          intro h
          have h1 := (abs_nonneg _).trans (h k (by simp)).1
          have h2 := ih fun k hk => h k (by simp [hk])
          rw [List.map_cons, List.sum_cons]; push_cast; rw [mul_add]; push_cast at h2; linarith
      exact this l hl
    have n2 : 0 ≤ β * ((l.map bd).sum : ℤ) := by
      have : ∀ l : List MoonTerm, (∀ k ∈ l, |u' k - u k| ≤ α * er k ∧ |u k| ≤ β * bd k) →
          0 ≤ β * ((l.map bd).sum : ℤ) := by
        intro l; induction l with
        | nil => intro _; simp
        | cons k l ih =>
          intro h
          have h1 := (abs_nonneg _).trans (h k (by simp)).2
          have h2 := ih fun k hk => h k (by simp [hk])
          rw [List.map_cons, List.sum_cons]; push_cast; rw [mul_add]; push_cast at h2; linarith
      exact this l hl
    have n3 : 0 ≤ (l.length : ℝ) * (6.1e-8 * B) := by positivity
    rw [List.map_cons, List.sum_cons, Int.cast_add, mul_add] at h3 h4
    rw [List.map_cons, List.sum_cons, Int.cast_add, mul_add, List.map_cons, List.sum_cons, Int.cast_add, mul_add]
    rw [List.length_cons, Nat.cast_add, Nat.cast_one, add_mul, one_mul] at h4 ⊢
    rw [List.foldl_cons, List.foldl_cons]
    have hb : |s + u k| ≤ b + β * bd k := add_bd h2 hk2 le_rfl
    have he : |R (s' + u' k) - (s + u k)| ≤ e + α * er k + 6.1e-8 * B := by
      refine hR.add h1 hk1 hb ?_
      linarith
    obtain ⟨i1, i2⟩ := ih hl (s + u k) (R (s' + u' k)) (e + α * er k + 6.1e-8 * B) (b + β * bd k) he hb (by linarith)
      (by linarith) h5
    exact ⟨i1.trans (by linarith), i2.trans (by linarith)⟩

private theorem foldl_pair {f g : ℝ → MoonTerm → ℝ} (l : List MoonTerm) (x y : ℝ) :
    l.foldl (fun s k => (f s.1 k, g s.2 k)) (x, y) = (l.foldl f x, l.foldl g y) := by
  induction l generalizing x y with
  | nil => rfl
  | cons k l ih => exact ih _ _

/-- Condition on the terms of a table. -/
def TermOk (k : MoonTerm) : Prop :=
  1 ≤ |k.coeff| ∧ |k.coeff| ≤ 10000000 ∧ thetaErr k ≤ 3000 ∧ 1 ≤ rateBd k ∧ rateBd k ≤ 50000
instance (k : MoonTerm) : Decidable (TermOk k) := by unfold TermOk; infer_instance

/-- Sums over a table: sizes of the terms, of their errors, of the rates and of their errors. -/
def sumBd (l : List MoonTerm) : ℤ := (l.map fun k => |k.coeff|).sum
def sumErr (l : List MoonTerm) : ℤ := (l.map fun k => |k.coeff| * (thetaErr k + 1)).sum
def sumBdRate (l : List MoonTerm) : ℤ := (l.map fun k => |k.coeff| * rateBd k).sum
def sumErrRate (l : List MoonTerm) : ℤ := (l.map fun k => |k.coeff| * rateBd k * (thetaErr k + 2)).sum

theorem series_near {R : ℝ → ℝ} (hR : Single R) {u u' v v' : MoonTerm → ℝ} {B C : ℝ} (l : List MoonTerm)
    (hu : ∀ k ∈ l, |u' k - u k| ≤ 1e-12 * (|k.coeff| * (thetaErr k + 1) : ℤ) ∧ |u k| ≤ 1e-6 * (|k.coeff| : ℤ))
    (hv : ∀ k ∈ l, |v' k - v k| ≤ 1e-12 * (|k.coeff| * rateBd k * (thetaErr k + 2) : ℤ) ∧
      |v k| ≤ 1e-6 * (|k.coeff| * rateBd k : ℤ))
    (hB : 1e-6 * (sumBd l : ℝ) ≤ B) (hB' : 1e-12 * (sumErr l : ℝ) + l.length * (6.1e-8 * B) ≤ 0.01 * B) (hB0 : 1e-20 ≤ B)
    (hC : 1e-6 * (sumBdRate l : ℝ) ≤ C) (hC' : 1e-12 * (sumErrRate l : ℝ) + l.length * (6.1e-8 * C) ≤ 0.01 * C)
    (hC0 : 1e-20 ≤ C) :
    let x := l.foldl (fun s k => (R (s.1 + u' k), R (s.2 + v' k))) ((0 : ℝ), (0 : ℝ))
    let y := l.foldl (fun s k => (s.1 + u k, s.2 + v k)) ((0 : ℝ), (0 : ℝ))
    |x.1 - y.1| ≤ 1e-12 * (sumErr l : ℝ) + l.length * (6.1e-8 * B) ∧ |y.1| ≤ 1e-6 * (sumBd l : ℝ) ∧
    |x.2 - y.2| ≤ 1e-12 * (sumErrRate l : ℝ) + l.length * (6.1e-8 * C) ∧ |y.2| ≤ 1e-6 * (sumBdRate l : ℝ) := by
  intro x y
  have ex : x = (l.foldl (fun s k => R (s + u' k)) 0, l.foldl (fun s k => R (s + v' k)) 0) :=
    foldl_pair (f := fun s k => R (s + u' k)) (g := fun s k => R (s + v' k)) l 0 0
  have ey : y = (l.foldl (fun s k => s + u k) 0, l.foldl (fun s k => s + v k) 0) :=
    foldl_pair (f := fun s k => s + u k) (g := fun s k => s + v k) l 0 0
  rw [ex, ey]
  have h1 := fold_near (B := B) hR l hu 0 0 0 0 (by simp) (by simp)
    (by rw [zero_add]; exact hB) (by rw [zero_add]; exact hB') hB0
  have h2 := fold_near (B := C) hR l hv 0 0 0 0 (by simp) (by simp)
    (by rw [zero_add]; exact hC) (by rw [zero_add]; exact hC') hC0
  simp only [zero_add] at h1 h2
  exact ⟨h1.1, h1.2, h2.1, h2.2⟩

end Sla.Fp
