/- C92: `moon` against `dmoon`. -/
import Verif.Props.Earth
import Verif.Props.Moon

noncomputable section
namespace Sla.Props

open Real Sla.Spec Matrix _root_.Spec

/-! ### Sums over the tables -/

private theorem moonSin_fold (a : MoonArgs) : ∀ (l : List MoonTerm) (s : ℝ × ℝ), l.foldl (moonSinTerm a) s =
    (s.1 + (l.map fun k => k.c * Real.sin (k.theta a)).sum, s.2 + (l.map fun k => k.c * Real.cos (k.theta a) * k.thetad).sum) := by
  intro l
  induction l with
  | nil => intro s; simp
  | cons k l ih => intro s; rw [List.foldl_cons, ih]; simp [moonSinTerm, add_assoc]

private theorem moonCos_fold (a : MoonArgs) : ∀ (l : List MoonTerm) (s : ℝ × ℝ), l.foldl (moonCosTerm a) s =
    (s.1 + (l.map fun k => k.c * Real.cos (k.theta a)).sum,
     s.2 + (l.map fun k => k.c * -Real.sin (k.theta a) * k.thetad).sum) := by
  intro l
  induction l with
  | nil => intro s; simp
  | cons k l ih =>
    intro s
    rw [List.foldl_cons, ih]
    simp only [moonCosTerm, List.map_cons, List.sum_cons]
    ext <;> dsimp only <;> ring

private theorem dmoonSin_fold (t : ℝ) (a r : MoonArgs) : ∀ (l : List MoonTerm) (s : ℝ × ℝ), l.foldl (dmoonSinTerm t a r) s =
    (s.1 + (l.map fun k => k.c * Real.sin (k.theta a) * dmoonEn t k.e).sum,
     s.2 + (l.map fun k => k.c * (Real.cos (k.theta a) * k.theta r * dmoonEn t k.e +
       Real.sin (k.theta a) * dmoonDen t k.e)).sum) := by
  intro l
  induction l with
  | nil => intro s; simp
  | cons k l ih => intro s; rw [List.foldl_cons, ih]; simp [dmoonSinTerm, add_assoc]

private theorem dmoonCos_fold (t : ℝ) (a r : MoonArgs) : ∀ (l : List MoonTerm) (s : ℝ × ℝ), l.foldl (dmoonCosTerm t a r) s =
    (s.1 + (l.map fun k => k.c * Real.cos (k.theta a) * dmoonEn t k.e).sum,
     s.2 + (l.map fun k => k.c * (-Real.sin (k.theta a) * k.theta r * dmoonEn t k.e +
       Real.cos (k.theta a) * dmoonDen t k.e)).sum) := by
  intro l
  induction l with
  | nil => intro s; simp
  | cons k l ih => intro s; rw [List.foldl_cons, ih]; simp [dmoonCosTerm, add_assoc]

private theorem sum_bound (l : List MoonTerm) (F : MoonTerm → ℝ) (w : MoonTerm → ℤ) (c : ℝ)
    (h : ∀ k, |F k| ≤ w k * c) : |(l.map F).sum| ≤ ((l.map w).sum : ℤ) * c := by
  induction l with
  | nil => simp
  | cons k l ih =>
    simp only [List.map_cons, List.sum_cons, Int.cast_add, add_mul]
    exact (abs_add_le _ _).trans (add_le_add (h k) ih)

private theorem sum_sub (l : List MoonTerm) (F G : MoonTerm → ℝ) :
    (l.map F).sum - (l.map G).sum = (l.map fun k => F k - G k).sum := by
  induction l with
  | nil => simp
  | cons k l ih => simp only [List.map_cons, List.sum_cons, ← ih]; ring

/-! ### Weights -/

/-- Bounds for the difference of an argument (1e-7 degree), its rate (1e-6 degree per year), the difference of its rate
    (1e-4 degree per century), the eccentricity factor less one and the rate of that (1e-6). -/
private def at' (k : MoonTerm) : ℤ := |k.m| * 24050 + |k.mp| * 442060 + |k.d| * 136990 + |k.f| * 458300
private def nt (k : MoonTerm) : ℤ := k.m * 359990498 + k.mp * 4771988491 + k.d * 4452671142 + k.f * 4832020251
private def dt' (k : MoonTerm) : ℤ := |k.m| * 13 + |k.mp| * 1330 + |k.d| * 830 + |k.f| * 10100
private def ec (i : ℤ) : ℤ := if i = 0 then 0 else if i = 1 then 5021 else 10068
private def ed (i : ℤ) : ℤ := if i = 0 then 0 else if i = 1 then 2526 else 5080

private def pw (k : MoonTerm) : ℤ := |k.coeff| * (at' k * 174533 + ec k.e * 10 ^ 8)
private def dw (k : MoonTerm) : ℤ := |k.coeff| * (10 ^ 6 + ec k.e)
private def rw' (k : MoonTerm) : ℤ := |k.coeff| * (at' k * 174533 ^ 2 * |nt k| + 174533 * dt' k * (10 ^ 6 + ec k.e) * 10 ^ 8 +
  ec k.e * 174533 * |nt k| * 10 ^ 8 + ed k.e * 10 ^ 19)
private def sw (k : MoonTerm) : ℤ := |k.coeff| * (174533 * (|nt k| + dt' k) * (10 ^ 6 + ec k.e) + ed k.e * 10 ^ 11)

private theorem d2r_bounds : 0.01745329 < d2r ∧ d2r < 0.017453293 := by
  have h1 := Real.pi_gt_d20
  have h2 := Real.pi_lt_d20
  simp only [d2r]
  constructor <;> linarith

private theorem abs_mul_le' {x y X Y : ℝ} (hx : |x| ≤ X) (hy : |y| ≤ Y) : |x * y| ≤ X * Y := by
  rw [abs_mul]; exact mul_le_mul hx hy (abs_nonneg _) ((abs_nonneg x).trans hx)

private theorem en_bound {t : ℝ} (ht : |t| ≤ 2) (i : ℤ) :
    |1 - dmoonEn t i| ≤ (ec i : ℝ) / 10 ^ 6 ∧ |dmoonDen t i| ≤ (ed i : ℝ) / 10 ^ 6 := by
  have h := abs_le.mp ht
  have h2 : t * t ≤ 4 := by nlinarith
  have h3 : 0 ≤ t * t := mul_self_nonneg t
  have e1 : |dmoonE t - 1| ≤ 0.005021 := by
    simp only [dmoonE]; rw [abs_le]; constructor <;> nlinarith
  have e2 : |dmoonDe t| ≤ 0.002526 := by
    simp only [dmoonDe]; rw [abs_le]; constructor <;> nlinarith
  have e3 : |dmoonE t| ≤ 1.005021 := by
    rw [abs_le] at e1 ⊢; constructor <;> linarith [e1.1, e1.2]
  simp only [dmoonEn, dmoonDen, ec, ed]
  split_ifs
  · norm_num
  · rw [abs_sub_comm]
    exact ⟨e1.trans (by norm_num), e2.trans (by norm_num)⟩
  · constructor
    · rw [show 1 - dmoonE t * dmoonE t = -((dmoonE t - 1) * 2 + (dmoonE t - 1) * (dmoonE t - 1)) by ring, abs_neg]
      refine (abs_add_le _ _).trans ((add_le_add (abs_mul_le' e1 (le_of_eq abs_two)) (abs_mul_le' e1 e1)).trans (by norm_num))
    · refine (abs_mul_le' (abs_mul_le' (le_of_eq abs_two) e3) e2).trans (by norm_num)

/-- Arguments near those of `moon`, and rates near theirs. -/
private structure Near (a b r : MoonArgs) : Prop where
  em : |a.em - b.em| ≤ d2r * 0.002405
  emp : |a.emp - b.emp| ≤ d2r * 0.044206
  d : |a.d - b.d| ≤ d2r * 0.013699
  f : |a.f - b.f| ≤ d2r * 0.04583
  em' : |d2r * 35999.0498 - r.em| ≤ d2r * 0.0013
  emp' : |d2r * 477198.8491 - r.emp| ≤ d2r * 0.133
  d' : |d2r * 445267.1142 - r.d| ≤ d2r * 0.083
  f' : |d2r * 483202.0251 - r.f| ≤ d2r * 1.01

private theorem int_mul_le (n : ℤ) {x X : ℝ} (h : |x| ≤ X) : |n * x| ≤ (|n| : ℤ) * X := by
  rw [abs_mul, Int.cast_abs]; exact mul_le_mul_of_nonneg_left h (abs_nonneg _)

private theorem theta_near {a b r : MoonArgs} (h : Near a b r) (k : MoonTerm) :
    |k.theta a - k.theta b| ≤ d2r * ((at' k : ℝ) / 10 ^ 7) ∧
    |d2r * ((nt k : ℝ) / 10 ^ 4) - k.theta r| ≤ d2r * ((dt' k : ℝ) / 10 ^ 4) := by
  constructor
  · rw [show k.theta a - k.theta b = k.m * (a.em - b.em) + k.mp * (a.emp - b.emp) + k.d * (a.d - b.d) + k.f * (a.f - b.f) by
      simp only [MoonTerm.theta]; ring]
    have b1 := int_mul_le k.m h.em
    have b2 := int_mul_le k.mp h.emp
    have b3 := int_mul_le k.d h.d
    have b4 := int_mul_le k.f h.f
    refine (abs_add_le _ _).trans ((add_le_add ((abs_add_le _ _).trans (add_le_add ((abs_add_le _ _).trans
      (add_le_add b1 b2)) b3)) b4).trans (le_of_eq ?_))
    simp only [at']; push_cast; ring
  · rw [show d2r * ((nt k : ℝ) / 10 ^ 4) - k.theta r = k.m * (d2r * 35999.0498 - r.em) + k.mp * (d2r * 477198.8491 - r.emp) +
      k.d * (d2r * 445267.1142 - r.d) + k.f * (d2r * 483202.0251 - r.f) by
      simp only [MoonTerm.theta, nt]; push_cast; ring]
    have b1 := int_mul_le k.m h.em'
    have b2 := int_mul_le k.mp h.emp'
    have b3 := int_mul_le k.d h.d'
    have b4 := int_mul_le k.f h.f'
    refine (abs_add_le _ _).trans ((add_le_add ((abs_add_le _ _).trans (add_le_add ((abs_add_le _ _).trans
      (add_le_add b1 b2)) b3)) b4).trans (le_of_eq ?_))
    simp only [dt']; push_cast; ring

private theorem abs_coeff (k : MoonTerm) : |k.c| = (|k.coeff| : ℤ) / 10 ^ 6 := by
  rw [MoonTerm.c, abs_div, abs_of_pos (by norm_num : (0 : ℝ) < 1000000), Int.cast_abs]; norm_num

private theorem weights_nonneg (k : MoonTerm) : (0 : ℝ) ≤ (|k.coeff| : ℤ) ∧ (0 : ℝ) ≤ at' k ∧ (0 : ℝ) ≤ dt' k ∧
    (0 : ℝ) ≤ ec k.e ∧ (0 : ℝ) ≤ ed k.e ∧ (0 : ℝ) ≤ (|nt k| : ℤ) := by
  refine ⟨by exact_mod_cast abs_nonneg _, ?_, ?_, ?_, ?_, by exact_mod_cast abs_nonneg _⟩
  · simp only [at']; exact_mod_cast by positivity
  · simp only [dt']; exact_mod_cast by positivity
  · simp only [ec]; split_ifs <;> norm_num
  · simp only [ed]; split_ifs <;> norm_num

/-- A term and its rate in the one series less the other. -/
private theorem term_near {t : ℝ} (ht : |t| ≤ 2) {a b r : MoonArgs} (h : Near a b r) (k : MoonTerm) {u v u' v' : ℝ}
    (hu : |u - v| ≤ |k.theta a - k.theta b|) (hu' : |u' - v'| ≤ |k.theta a - k.theta b|) (hv : |v| ≤ 1) (hv' : |v'| ≤ 1) :
    |k.c * u - k.c * v * dmoonEn t k.e| ≤ (pw k : ℝ) * (1 / 10 ^ 20) ∧
    |k.c * (u' * (d2r * ((nt k : ℝ) / 10 ^ 4))) - k.c * (v' * k.theta r * dmoonEn t k.e + v * dmoonDen t k.e)| ≤
      (rw' k : ℝ) * (1 / 10 ^ 31) := by
  obtain ⟨h1, h2⟩ := theta_near h k
  obtain ⟨g1, g2⟩ := en_bound ht k.e
  obtain ⟨n0, n1, n2, n3, n4, n5⟩ := weights_nonneg k
  have d1 : d2r ≤ 174533 / 10 ^ 7 := d2r_bounds.2.le.trans (by norm_num)
  have d0 : 0 ≤ d2r := by linarith [d2r_bounds.1]
  have c0 : (0 : ℝ) ≤ |k.c| := abs_nonneg _
  have h1' : |k.theta a - k.theta b| ≤ 174533 / 10 ^ 7 * ((at' k : ℝ) / 10 ^ 7) :=
    h1.trans (mul_le_mul_of_nonneg_right d1 (by positivity))
  have h2' : |d2r * ((nt k : ℝ) / 10 ^ 4) - k.theta r| ≤ 174533 / 10 ^ 7 * ((dt' k : ℝ) / 10 ^ 4) :=
    h2.trans (mul_le_mul_of_nonneg_right d1 (by positivity))
  have hN : |d2r * ((nt k : ℝ) / 10 ^ 4)| ≤ 174533 / 10 ^ 7 * (((|nt k| : ℤ) : ℝ) / 10 ^ 4) := by
    rw [abs_mul, abs_of_nonneg d0, abs_div, abs_of_pos (by norm_num : (0 : ℝ) < 10 ^ 4), ← Int.cast_abs]
    exact mul_le_mul_of_nonneg_right d1 (by positivity)
  have hR : |k.theta r| ≤ 174533 / 10 ^ 7 * (((|nt k| : ℤ) : ℝ) / 10 ^ 4) + 174533 / 10 ^ 7 * ((dt' k : ℝ) / 10 ^ 4) := by
    rw [show k.theta r = d2r * ((nt k : ℝ) / 10 ^ 4) - (d2r * ((nt k : ℝ) / 10 ^ 4) - k.theta r) by ring]
    exact (abs_sub _ _).trans (add_le_add hN h2')
  constructor
  · rw [show k.c * u - k.c * v * dmoonEn t k.e = k.c * ((u - v) + v * (1 - dmoonEn t k.e)) by ring, abs_mul, abs_coeff]
    refine (mul_le_mul_of_nonneg_left ((abs_add_le _ _).trans (add_le_add (hu.trans h1') (abs_mul_le' hv g1)))
      (by positivity)).trans (le_of_eq ?_)
    simp only [pw]; push_cast; ring
  · rw [show k.c * (u' * (d2r * ((nt k : ℝ) / 10 ^ 4))) - k.c * (v' * k.theta r * dmoonEn t k.e + v * dmoonDen t k.e) =
      k.c * ((u' - v') * (d2r * ((nt k : ℝ) / 10 ^ 4)) + v' * (d2r * ((nt k : ℝ) / 10 ^ 4) - k.theta r) +
        v' * k.theta r * (1 - dmoonEn t k.e) - v * dmoonDen t k.e) by ring, abs_mul, abs_coeff]
    refine (mul_le_mul_of_nonneg_left ((abs_sub _ _).trans (add_le_add ((abs_add_le _ _).trans (add_le_add
      ((abs_add_le _ _).trans (add_le_add (abs_mul_le' (hu'.trans h1') hN) (abs_mul_le' hv' h2')))
      (abs_mul_le' (abs_mul_le' hv' hR) g1))) (abs_mul_le' hv g2))) (by positivity)).trans (le_of_eq ?_)
    simp only [rw']; push_cast; ring

/-- A term of the longer series alone. -/
private theorem term_alone {t : ℝ} (ht : |t| ≤ 2) {a b r : MoonArgs} (h : Near a b r) (k : MoonTerm) {v v' : ℝ}
    (hv : |v| ≤ 1) (hv' : |v'| ≤ 1) :
    |k.c * v * dmoonEn t k.e| ≤ (dw k : ℝ) * (1 / 10 ^ 12) ∧
    |k.c * (v' * k.theta r * dmoonEn t k.e + v * dmoonDen t k.e)| ≤ (sw k : ℝ) * (1 / 10 ^ 23) := by
  obtain ⟨-, h2⟩ := theta_near h k
  obtain ⟨g1, g2⟩ := en_bound ht k.e
  obtain ⟨n0, n1, n2, n3, n4, n5⟩ := weights_nonneg k
  have d1 : d2r ≤ 174533 / 10 ^ 7 := d2r_bounds.2.le.trans (by norm_num)
  have d0 : 0 ≤ d2r := by linarith [d2r_bounds.1]
  have h2' : |d2r * ((nt k : ℝ) / 10 ^ 4) - k.theta r| ≤ 174533 / 10 ^ 7 * ((dt' k : ℝ) / 10 ^ 4) :=
    h2.trans (mul_le_mul_of_nonneg_right d1 (by positivity))
  have hN : |d2r * ((nt k : ℝ) / 10 ^ 4)| ≤ 174533 / 10 ^ 7 * (((|nt k| : ℤ) : ℝ) / 10 ^ 4) := by
    rw [abs_mul, abs_of_nonneg d0, abs_div, abs_of_pos (by norm_num : (0 : ℝ) < 10 ^ 4), ← Int.cast_abs]
    exact mul_le_mul_of_nonneg_right d1 (by positivity)
  have hR : |k.theta r| ≤ 174533 / 10 ^ 7 * (((|nt k| : ℤ) : ℝ) / 10 ^ 4) + 174533 / 10 ^ 7 * ((dt' k : ℝ) / 10 ^ 4) := by
    rw [show k.theta r = d2r * ((nt k : ℝ) / 10 ^ 4) - (d2r * ((nt k : ℝ) / 10 ^ 4) - k.theta r) by ring]
    exact (abs_sub _ _).trans (add_le_add hN h2')
  have hE : |dmoonEn t k.e| ≤ 1 + (ec k.e : ℝ) / 10 ^ 6 := by
    rw [show dmoonEn t k.e = 1 - (1 - dmoonEn t k.e) by ring]
    exact (abs_sub _ _).trans (add_le_add (le_of_eq abs_one) g1)
  constructor
  · rw [mul_assoc, abs_mul, abs_coeff]
    refine (mul_le_mul_of_nonneg_left (abs_mul_le' hv hE) (by positivity)).trans (le_of_eq ?_)
    simp only [dw]; push_cast; ring
  · rw [abs_mul, abs_coeff]
    refine (mul_le_mul_of_nonneg_left ((abs_add_le _ _).trans (add_le_add (abs_mul_le' (abs_mul_le' hv' hR) hE)
      (abs_mul_le' hv g2))) (by positivity)).trans (le_of_eq ?_)
    simp only [sw]; push_cast; ring

private theorem sin_lip (x y : ℝ) : |Real.sin x - Real.sin y| ≤ |x - y| := Real.abs_sin_sub_sin_le x y
private theorem cos_lip (x y : ℝ) : |Real.cos x - Real.cos y| ≤ |x - y| := Real.abs_cos_sub_cos_le x y

private theorem near_key {t : ℝ} (ht : |t| ≤ 2) (c2 c3 : ℝ) {x X Y : ℝ} (h : |x| ≤ X) (hY : |c2| * 4 + |c3| * 8 + X ≤ Y) :
    |d2r * (c2 * t ^ 2 + c3 * t ^ 3 + x)| ≤ d2r * Y := by
  have hd : 0 ≤ d2r := by linarith [d2r_bounds.1]
  rw [abs_mul, abs_of_nonneg hd]
  have h2 : |t ^ 2| ≤ 4 := by rw [abs_pow]; exact (pow_le_pow_left₀ (abs_nonneg t) ht 2).trans (by norm_num)
  have h3 : |t ^ 3| ≤ 8 := by rw [abs_pow]; exact (pow_le_pow_left₀ (abs_nonneg t) ht 3).trans (by norm_num)
  exact mul_le_mul_of_nonneg_left (((abs_add_le _ _).trans (add_le_add ((abs_add_le _ _).trans (add_le_add
    (abs_mul_le' le_rfl h2) (abs_mul_le' le_rfl h3))) h)).trans hY) hd

private theorem rate_key {t : ℝ} (ht : |t| ≤ 2) (c2 c3 : ℝ) {x X Y : ℝ} (h : |x| ≤ X) (hY : |c2| * 4 + |c3| * 12 + X ≤ Y) :
    |-(d2r * (2 * c2 * t + 3 * c3 * t ^ 2 + x))| ≤ d2r * Y := by
  have hd : 0 ≤ d2r := by linarith [d2r_bounds.1]
  rw [abs_neg, abs_mul, abs_of_nonneg hd]
  have h2 : |t ^ 2| ≤ 4 := by rw [abs_pow]; exact (pow_le_pow_left₀ (abs_nonneg t) ht 2).trans (by norm_num)
  have a1 : |2 * c2 * t| ≤ |c2| * 4 := by
    rw [show 2 * c2 * t = c2 * (2 * t) by ring]
    exact abs_mul_le' le_rfl (by rw [abs_mul, abs_two]; linarith)
  have a2 : |3 * c3 * t ^ 2| ≤ |c3| * 12 := by
    rw [show 3 * c3 * t ^ 2 = c3 * (3 * t ^ 2) by ring]
    exact abs_mul_le' le_rfl (by rw [abs_mul, abs_of_pos (by norm_num : (0 : ℝ) < 3)]; linarith)
  exact mul_le_mul_of_nonneg_left (((abs_add_le _ _).trans (add_le_add ((abs_add_le _ _).trans (add_le_add a1 a2)) h)).trans
    hY) hd

private theorem abs3 {a b c x y z : ℝ} (p q r : ℝ) (ha : |x| ≤ a) (hb : |y| ≤ b) (hc : |z| ≤ c) :
    |p * x + q * y + r * z| ≤ |p| * a + |q| * b + |r| * c :=
  (abs_add_le _ _).trans (add_le_add ((abs_add_le _ _).trans (add_le_add (abs_mul_le' le_rfl ha) (abs_mul_le' le_rfl hb)))
    (abs_mul_le' le_rfl hc))

/-- The arguments of the two routines, two centuries either side of 1900. -/
private theorem args_near {t : ℝ} (ht : |t| ≤ 2) :
    Near (moonArgs id (100 * t) (100 * t)) (dmoonPeriodic t (dmoonArgs id t))
      (dmoonPeriodicRates t (dmoonArgs id t) (dmoonRates t)) ∧
    |(moonArgs id (100 * t) (100 * t)).elp - (dmoonPeriodic t (dmoonArgs id t)).elp| ≤ d2r * 0.01071 ∧
    |d2r * 481267.8831 - (dmoonPeriodicRates t (dmoonArgs id t) (dmoonRates t)).elp| ≤ d2r * 0.081 ∧
    |(dmoonRates t).om| ≤ 33.76 ∧ |dmoonDwom (dmoonRates t)| ≤ 33.8 := by
  obtain ⟨d1, d2⟩ := d2r_bounds
  have hd : |d2r| ≤ 0.017453293 := by rw [abs_of_nonneg (by linarith)]; linarith
  have hc : ∀ x, |Real.cos x| ≤ 1 := Real.abs_cos_le_one
  have hs : ∀ x, |Real.sin x| ≤ 1 := Real.abs_sin_le_one
  have wa : |dmoonWa t| ≤ 1 := hs _
  have wb : |dmoonWb t| ≤ 0.003964 := (abs_mul_le' (X := 0.003964) (by norm_num) (hs _)).trans (by norm_num)
  have dwa : |dmoonDwa t| ≤ 0.3526 :=
    (abs_mul_le' (abs_mul_le' (Y := 20.2) hd (by norm_num)) (hc _)).trans (by norm_num)
  have dwb : |dmoonDwb t| ≤ 0.0092 := by
    have h1 : |132.870 + 2 * -0.0091731 * t| ≤ 132.91 := by
      have := abs_le.mp ht
      rw [abs_le]; constructor <;> linarith
    exact (abs_mul_le' (abs_mul_le' (abs_mul_le' (Y := 0.003964) hd (by norm_num)) h1) (hc _)).trans (by norm_num)
  have om' : |(-(dmoonRates t).om) - d2r * 1934.1420| ≤ d2r * 0.009 := by
    rw [show (-(dmoonRates t).om) - d2r * 1934.1420 = -(d2r * (2 * 0.002078 * t + 3 * 0.0000022 * t ^ 2 + 0)) by
      simp only [dmoonRates, moonPolyRate]; ring]
    exact rate_key ht _ _ (X := 0) (by simp) (by rw [abs_of_pos, abs_of_pos] <;> norm_num)
  have om1 : |(dmoonRates t).om| ≤ 33.76 := by
    rw [abs_le] at om' ⊢
    constructor <;> linarith [om'.1, om'.2]
  have om2 : |dmoonDwom (dmoonRates t)| ≤ 33.8 := by
    simp only [dmoonDwom]
    rw [abs_le] at om' ⊢
    constructor <;> linarith [om'.1, om'.2]
  have co := abs_mul_le' om1 (hc (dmoonArgs id t).om)
  have cw := abs_mul_le' om2 (hc (dmoonWom t (dmoonArgs id t)))
  rw [mul_one] at co cw
  have so := hs (dmoonArgs id t).om
  have sw := hs (dmoonWom t (dmoonArgs id t))
  refine ⟨⟨?_, ?_, ?_, ?_, ?_, ?_, ?_, ?_⟩, ?_, ?_, om1, om2⟩
  · rw [show (moonArgs id (100 * t) (100 * t)).em - (dmoonPeriodic t (dmoonArgs id t)).em =
      d2r * (0.000150 * t ^ 2 + 0.0000033 * t ^ 3 + 0.001778 * dmoonWa t) by
      simp only [moonArgs, dmoonPeriodic, dmoonArgs, moonPoly, id_eq]; ring]
    exact near_key ht _ _ (abs_mul_le' le_rfl wa) (by norm_num [abs_of_pos])
  · rw [show (moonArgs id (100 * t) (100 * t)).emp - (dmoonPeriodic t (dmoonArgs id t)).emp =
      d2r * (-0.009192 * t ^ 2 + -0.0000144 * t ^ 3 + (-0.000817 * dmoonWa t + -1 * dmoonWb t +
        -0.002541 * Real.sin (dmoonArgs id t).om)) by
      simp only [moonArgs, dmoonPeriodic, dmoonArgs, moonPoly, id_eq]; ring]
    exact near_key ht _ _ (abs3 _ _ _ wa wb so) (by norm_num [abs_of_pos])
  · rw [show (moonArgs id (100 * t) (100 * t)).d - (dmoonPeriodic t (dmoonArgs id t)).d =
      d2r * (0.001436 * t ^ 2 + -0.0000019 * t ^ 3 + (-0.002011 * dmoonWa t + -1 * dmoonWb t +
        -0.001964 * Real.sin (dmoonArgs id t).om)) by
      simp only [moonArgs, dmoonPeriodic, dmoonArgs, moonPoly, id_eq]; ring]
    exact near_key ht _ _ (abs3 _ _ _ wa wb so) (by norm_num [abs_of_pos])
  · rw [show (moonArgs id (100 * t) (100 * t)).f - (dmoonPeriodic t (dmoonArgs id t)).f =
      d2r * (0.003211 * t ^ 2 + 0.0000003 * t ^ 3 + (-1 * dmoonWb t + 0.024691 * Real.sin (dmoonArgs id t).om +
        0.004328 * Real.sin (dmoonWom t (dmoonArgs id t)))) by
      simp only [moonArgs, dmoonPeriodic, dmoonArgs, moonPoly, id_eq]; ring]
    exact near_key ht _ _ (abs3 _ _ _ wb so sw) (by norm_num [abs_of_pos])
  · rw [show d2r * 35999.0498 - (dmoonPeriodicRates t (dmoonArgs id t) (dmoonRates t)).em =
      -(d2r * (2 * -0.000150 * t + 3 * -0.0000033 * t ^ 2 + -0.001778 * dmoonDwa t)) by
      simp only [dmoonPeriodicRates, dmoonRates, moonPolyRate]; ring]
    exact rate_key ht _ _ (abs_mul_le' le_rfl dwa) (by norm_num [abs_of_pos])
  · rw [show d2r * 477198.8491 - (dmoonPeriodicRates t (dmoonArgs id t) (dmoonRates t)).emp =
      -(d2r * (2 * 0.009192 * t + 3 * 0.0000144 * t ^ 2 + (0.000817 * dmoonDwa t + 1 * dmoonDwb t +
        0.002541 * ((dmoonRates t).om * Real.cos (dmoonArgs id t).om)))) by
      simp only [dmoonPeriodicRates, dmoonRates, moonPolyRate]; ring]
    exact rate_key ht _ _ (abs3 _ _ _ dwa dwb co) (by norm_num [abs_of_pos])
  · rw [show d2r * 445267.1142 - (dmoonPeriodicRates t (dmoonArgs id t) (dmoonRates t)).d =
      -(d2r * (2 * -0.001436 * t + 3 * 0.0000019 * t ^ 2 + (0.002011 * dmoonDwa t + 1 * dmoonDwb t +
        0.001964 * ((dmoonRates t).om * Real.cos (dmoonArgs id t).om)))) by
      simp only [dmoonPeriodicRates, dmoonRates, moonPolyRate]; ring]
    exact rate_key ht _ _ (abs3 _ _ _ dwa dwb co) (by norm_num [abs_of_pos])
  · rw [show d2r * 483202.0251 - (dmoonPeriodicRates t (dmoonArgs id t) (dmoonRates t)).f =
      -(d2r * (2 * -0.003211 * t + 3 * -0.0000003 * t ^ 2 + (1 * dmoonDwb t +
        -0.024691 * ((dmoonRates t).om * Real.cos (dmoonArgs id t).om) +
        -0.004328 * (dmoonDwom (dmoonRates t) * Real.cos (dmoonWom t (dmoonArgs id t)))))) by
      simp only [dmoonPeriodicRates, dmoonRates, moonPolyRate]; ring]
    exact rate_key ht _ _ (abs3 _ _ _ dwb co cw) (by norm_num [abs_of_pos])
  · rw [show (moonArgs id (100 * t) (100 * t)).elp - (dmoonPeriodic t (dmoonArgs id t)).elp =
      d2r * (0.001133 * t ^ 2 + -0.0000019 * t ^ 3 + (-0.000233 * dmoonWa t + -1 * dmoonWb t +
        -0.001964 * Real.sin (dmoonArgs id t).om)) by
      simp only [moonArgs, dmoonPeriodic, dmoonArgs, moonPoly, id_eq]; ring]
    exact near_key ht _ _ (abs3 _ _ _ wa wb so) (by norm_num [abs_of_pos])
  · rw [show d2r * 481267.8831 - (dmoonPeriodicRates t (dmoonArgs id t) (dmoonRates t)).elp =
      -(d2r * (2 * -0.001133 * t + 3 * 0.0000019 * t ^ 2 + (0.000233 * dmoonDwa t + 1 * dmoonDwb t +
        0.001964 * ((dmoonRates t).om * Real.cos (dmoonArgs id t).om)))) by
      simp only [dmoonPeriodicRates, dmoonRates, moonPolyRate]; ring]
    exact rate_key ht _ _ (abs3 _ _ _ dwa dwb co) (by norm_num [abs_of_pos])

/-! ### The series -/

/-- The two series, the first `n` terms of the second having the coefficients and arguments of the first. -/
private theorem series_near {t : ℝ} (ht : |t| ≤ 2) {a b r : MoonArgs} (h : Near a b r) (u u' : ℝ → ℝ)
    (hu : ∀ x y, |u x - u y| ≤ |x - y|) (hu' : ∀ x y, |u' x - u' y| ≤ |x - y|) (h1 : ∀ x, |u x| ≤ 1) (h1' : ∀ x, |u' x| ≤ 1)
    (K R : List MoonTerm) :
    |(K.map fun k => k.c * u (k.theta a)).sum - ((K ++ R).map fun k => k.c * u (k.theta b) * dmoonEn t k.e).sum| ≤
      ((K.map pw).sum : ℤ) * (1 / 10 ^ 20) + ((R.map dw).sum : ℤ) * (1 / 10 ^ 12) ∧
    |(K.map fun k => k.c * (u' (k.theta a) * (d2r * ((nt k : ℝ) / 10 ^ 4)))).sum -
      ((K ++ R).map fun k => k.c * (u' (k.theta b) * k.theta r * dmoonEn t k.e + u (k.theta b) * dmoonDen t k.e)).sum| ≤
      ((K.map rw').sum : ℤ) * (1 / 10 ^ 31) + ((R.map sw).sum : ℤ) * (1 / 10 ^ 23) := by
  constructor
  · rw [List.map_append, List.sum_append, ← sub_sub, sum_sub]
    exact (abs_sub _ _).trans (add_le_add
      (sum_bound K _ pw _ fun k => (term_near ht h k (hu _ _) (hu' _ (k.theta b)) (h1 _) (h1' _)).1)
      (sum_bound R _ dw _ fun k => (term_alone ht h k (h1 _) (h1' (k.theta b))).1))
  · rw [List.map_append, List.sum_append, ← sub_sub, sum_sub]
    exact (abs_sub _ _).trans (add_le_add
      (sum_bound K _ rw' _ fun k => (term_near ht h k (hu _ _) (hu' _ _) (h1 _) (h1' _)).2)
      (sum_bound R _ sw _ fun k => (term_alone ht h k (h1 _) (h1' _)).2))

private theorem series_alone {t : ℝ} (ht : |t| ≤ 2) {a b r : MoonArgs} (h : Near a b r) (u u' : ℝ → ℝ)
    (h1 : ∀ x, |u x| ≤ 1) (h1' : ∀ x, |u' x| ≤ 1) (R : List MoonTerm) :
    |(R.map fun k => k.c * u (k.theta b) * dmoonEn t k.e).sum| ≤ ((R.map dw).sum : ℤ) * (1 / 10 ^ 12) ∧
    |(R.map fun k => k.c * (u' (k.theta b) * k.theta r * dmoonEn t k.e + u (k.theta b) * dmoonDen t k.e)).sum| ≤
      ((R.map sw).sum : ℤ) * (1 / 10 ^ 23) :=
  ⟨sum_bound R _ dw _ fun k => (term_alone ht h k (h1 _) (h1' (k.theta b))).1,
   sum_bound R _ sw _ fun k => (term_alone ht h k (h1 _) (h1' _)).2⟩

private def noE (k : MoonTerm) : MoonTerm := { k with e := 0 }

/-- The tables of `moon` are the first terms of those of `dmoon`. -/
private theorem tables : moonL = (dmoonL.take 39).map noE ∧ moonB = (dmoonB.take 29).map noE ∧
    moonP = ((dmoonP.drop 1).take 4).map noE ∧ dmoonP = ⟨950724, 0, 0, 0, 0, 0⟩ :: dmoonP.drop 1 := ⟨rfl, rfl, rfl, rfl⟩

private theorem sums :
    ((dmoonL.take 39).map pw).sum ≤ 990300000000000000 ∧ ((dmoonL.drop 39).map dw).sum ≤ 7302400000 ∧
    ((dmoonB.take 29).map pw).sum ≤ 575000000000000000 ∧ ((dmoonB.drop 29).map dw).sum ≤ 7681000000 ∧
    (((dmoonP.drop 1).take 4).map pw).sum ≤ 6010000000000000 ∧ (((dmoonP.drop 1).drop 4).map dw).sum ≤ 4119000000 ∧
    ((dmoonL.take 39).map rw').sum ≤ 838 * 10 ^ 30 ∧ ((dmoonL.drop 39).map sw).sum ≤ 1165 * 10 ^ 22 ∧
    ((dmoonB.take 29).map rw').sum ≤ 506 * 10 ^ 30 ∧ ((dmoonB.drop 29).map sw).sum ≤ 1666 * 10 ^ 22 ∧
    (((dmoonP.drop 1).take 4).map rw').sum ≤ 56 * 10 ^ 29 ∧ (((dmoonP.drop 1).drop 4).map sw).sum ≤ 61 * 10 ^ 23 ∧
    (dmoonL.map sw).sum ≤ 82800 * 10 ^ 23 ∧ (dmoonB.map dw).sum ≤ 6082100000000 ∧ (dmoonB.map sw).sum ≤ 52330 * 10 ^ 23 ∧
    ((dmoonP.drop 1).map dw).sum ≤ 76140000000 ∧ ((dmoonP.drop 1).map sw).sum ≤ 731 * 10 ^ 23 := by
  decide +kernel

private theorem cast_le {n m : ℤ} {c x : ℝ} (h : n ≤ m) (hc : 0 ≤ c) (hx : (m : ℝ) * c ≤ x) : (n : ℝ) * c ≤ x :=
  (mul_le_mul_of_nonneg_right (by exact_mod_cast h) hc).trans hx

private theorem thetad_eq (k : MoonTerm) : 100 * d2r * k.thetad = d2r * ((nt k : ℝ) / 10 ^ 4) := by
  simp only [MoonTerm.thetad, nt]; push_cast; ring

private theorem sum_scale (l : List MoonTerm) (u : MoonTerm → ℝ) :
    100 * d2r * (l.map fun k => k.c * u k * k.thetad).sum = (l.map fun k => k.c * (u k * (d2r * ((nt k : ℝ) / 10 ^ 4)))).sum := by
  induction l with
  | nil => simp
  | cons k l ih =>
    simp only [List.map_cons, List.sum_cons, ← ih, ← thetad_eq k]; ring

private theorem sin_series {t : ℝ} (ht : |t| ≤ 2) {a b r : MoonArgs} (h : Near a b r) (S T : List MoonTerm) (n : ℕ)
    (hS : S = (T.take n).map noE) :
    |(S.reverse.foldl (moonSinTerm a) (0, 0)).1 - (T.reverse.foldl (dmoonSinTerm t b r) (0, 0)).1| ≤
      (((T.take n).map pw).sum : ℤ) * (1 / 10 ^ 20) + (((T.drop n).map dw).sum : ℤ) * (1 / 10 ^ 12) ∧
    |100 * d2r * (S.reverse.foldl (moonSinTerm a) (0, 0)).2 - (T.reverse.foldl (dmoonSinTerm t b r) (0, 0)).2| ≤
      (((T.take n).map rw').sum : ℤ) * (1 / 10 ^ 31) + (((T.drop n).map sw).sum : ℤ) * (1 / 10 ^ 23) ∧
    |(T.reverse.foldl (dmoonSinTerm t b r) (0, 0)).1| ≤ ((T.map dw).sum : ℤ) * (1 / 10 ^ 12) ∧
    |(T.reverse.foldl (dmoonSinTerm t b r) (0, 0)).2| ≤ ((T.map sw).sum : ℤ) * (1 / 10 ^ 23) := by
  obtain ⟨h1, h2⟩ := series_near ht h Real.sin Real.cos sin_lip cos_lip Real.abs_sin_le_one Real.abs_cos_le_one
    (T.take n) (T.drop n)
  obtain ⟨h3, h4⟩ := series_alone ht h Real.sin Real.cos Real.abs_sin_le_one Real.abs_cos_le_one T
  rw [List.take_append_drop] at h1 h2
  rw [← sum_scale (List.take n T) fun k => Real.cos (k.theta a)] at h2
  simp only [moonSin_fold, dmoonSin_fold, List.map_reverse, List.sum_reverse, zero_add, hS, List.map_map]
  exact ⟨h1, h2, h3, h4⟩

private theorem cos_series {t : ℝ} (ht : |t| ≤ 2) {a b r : MoonArgs} (h : Near a b r) (S T : List MoonTerm) (n : ℕ)
    (hS : S = (T.take n).map noE) :
    |(S.reverse.foldl (moonCosTerm a) (0, 0)).1 - (T.reverse.foldl (dmoonCosTerm t b r) (0, 0)).1| ≤
      (((T.take n).map pw).sum : ℤ) * (1 / 10 ^ 20) + (((T.drop n).map dw).sum : ℤ) * (1 / 10 ^ 12) ∧
    |100 * d2r * (S.reverse.foldl (moonCosTerm a) (0, 0)).2 - (T.reverse.foldl (dmoonCosTerm t b r) (0, 0)).2| ≤
      (((T.take n).map rw').sum : ℤ) * (1 / 10 ^ 31) + (((T.drop n).map sw).sum : ℤ) * (1 / 10 ^ 23) ∧
    |(T.reverse.foldl (dmoonCosTerm t b r) (0, 0)).1| ≤ ((T.map dw).sum : ℤ) * (1 / 10 ^ 12) ∧
    |(T.reverse.foldl (dmoonCosTerm t b r) (0, 0)).2| ≤ ((T.map sw).sum : ℤ) * (1 / 10 ^ 23) := by
  have l2 : ∀ x y, |-Real.sin x - -Real.sin y| ≤ |x - y| := fun x y => by
    rw [neg_sub_neg, abs_sub_comm]; exact sin_lip x y
  have b2 : ∀ x, |-Real.sin x| ≤ 1 := fun x => by rw [abs_neg]; exact Real.abs_sin_le_one x
  obtain ⟨h1, h2⟩ := series_near ht h Real.cos (fun x => -Real.sin x) cos_lip l2 Real.abs_cos_le_one b2
    (T.take n) (T.drop n)
  obtain ⟨h3, h4⟩ := series_alone ht h Real.cos (fun x => -Real.sin x) Real.abs_cos_le_one b2 T
  rw [List.take_append_drop] at h1 h2
  rw [← sum_scale (List.take n T) fun k => -Real.sin (k.theta a)] at h2
  simp only [moonCos_fold, dmoonCos_fold, List.map_reverse, List.sum_reverse, zero_add, hS, List.map_map]
  exact ⟨h1, h2, h3, h4⟩

/-! ### The spherical coordinates -/

/-- Seconds in a Julian century. -/
private def cy : ℝ := 3155760000

private structure Coords (s s' : SphericalPV) : Prop where
  long : |s.long - s'.long| ≤ d2r * 0.027917
  lat : |s.lat - s'.lat| ≤ d2r * 0.016733
  dist : |s.dist - s'.dist| ≤ 0.00481 * s'.dist
  near : 0.00237 ≤ s'.dist
  far : s'.dist ≤ 0.002794
  dlong : |cy * s.dlong - cy * s'.dlong| ≤ 3.5
  dlat : |cy * s.dlat - cy * s'.dlat| ≤ 4.29
  ddist : |cy * s.ddist - cy * s'.ddist| ≤ 0.2225
  rlong : |cy * s'.dlong| ≤ 9846
  rlat : |cy * s'.dlat| ≤ 914
  rdist : |cy * s'.ddist| ≤ 2.34

/-- Distances and their rates from the parallaxes (degrees) and their rates. -/
private theorem distance_near {q q' W W' : ℝ} (P1' : |q - q'| ≤ 0.0000601 + 0.004119) (P2' : |W - W'| ≤ 0.56 + 61)
    (P3' : |q'| ≤ 0.07614) (P4' : |W'| ≤ 731) :
    (fun p p' : ℝ => (fun D D' : ℝ => |D - D'| ≤ 0.00481 * D' ∧ 0.00237 ≤ D' ∧ D' ≤ 0.002794 ∧
      |-(D / Real.sin p * (d2r * W)) - -(D' / Real.sin p' * Real.cos p' * (d2r * W'))| ≤ 0.2225 ∧
      |-(D' / Real.sin p' * Real.cos p' * (d2r * W'))| ≤ 2.34)
      (4.2635212653763e-5 / Real.sin p) (4.2635212653763e-5 / Real.sin p'))
    ((q + 0.950724) * d2r) (d2r * (q' + 0.950724)) := by
  obtain ⟨d1, d2⟩ := d2r_bounds
  have d0 : 0 ≤ d2r := by linarith
  have hd : |d2r| ≤ 0.017453293 := by rw [abs_of_nonneg d0]; exact d2.le
  generalize hp : (q + 0.950724) * d2r = p
  generalize hp' : d2r * (q' + 0.950724) = p'
  have hpp : |p - p'| ≤ 7.295e-5 := by
    rw [show p - p' = d2r * (q - q') by rw [← hp, ← hp']; ring]
    exact (abs_mul_le' hd P1').trans (by norm_num)
  have hp1 : 0.015264 ≤ p' := by
    rw [← hp']; have := (abs_le.mp P3').1; clear * - this d1; nlinarith
  have hp2 : p' ≤ 0.017923 := by
    rw [← hp']; have h0 := (abs_le.mp P3').1; have := (abs_le.mp P3').2; clear * - this h0 d2; nlinarith
  have hp3 : 0.01519 ≤ p := by linarith [(abs_le.mp hpp).1]
  have hp4 : p ≤ 0.018 := by linarith [(abs_le.mp hpp).2]
  have hs1 : 0.015263 ≤ Real.sin p' := by
    have := Real.sin_gt_sub_cube (by linarith : 0 < p')
    have h3 : p' ^ 3 ≤ 0.017923 ^ 3 := pow_le_pow_left₀ (by linarith) hp2 3
    have h4 : (0.017923 : ℝ) ^ 3 ≤ 5.8e-6 := by norm_num
    linarith
  have hs2 : 0.015188 ≤ Real.sin p := by
    have := Real.sin_gt_sub_cube (by linarith : 0 < p)
    have h3 : p ^ 3 ≤ 0.018 ^ 3 := pow_le_pow_left₀ (by linarith) hp4 3
    have h4 : (0.018 : ℝ) ^ 3 ≤ 5.9e-6 := by norm_num
    linarith
  have hs3 : Real.sin p' ≤ 0.017923 := (Real.sin_le (by linarith)).trans hp2
  have hss : |Real.sin p' - Real.sin p| ≤ 7.295e-5 := (sin_lip _ _).trans (by rw [abs_sub_comm]; exact hpp)
  have hcos : |1 - Real.cos p'| ≤ 0.000161 := by
    have := Real.one_sub_sq_div_two_le_cos (x := p')
    have h2 := Real.cos_le_one p'
    rw [abs_of_nonneg (by linarith)]
    have h3 : p' ^ 2 ≤ 0.017923 ^ 2 := pow_le_pow_left₀ (by linarith) hp2 2
    have h4 : (0.017923 : ℝ) ^ 2 ≤ 0.0003214 := by norm_num
    linarith
  obtain ⟨D, e5⟩ : ∃ D : ℝ, D = 4.2635212653763e-5 / Real.sin p := ⟨_, rfl⟩
  obtain ⟨D', e5'⟩ : ∃ D' : ℝ, D' = 4.2635212653763e-5 / Real.sin p' := ⟨_, rfl⟩
  rw [← e5, ← e5']
  have hD1 : 0.00237 ≤ D' := by
    rw [e5', le_div_iff₀ (by linarith)]; refine (mul_le_mul_of_nonneg_left hs3 (by norm_num)).trans (by norm_num)
  have hD2 : D' ≤ 0.002794 := by
    rw [e5', div_le_iff₀ (by linarith)]; refine le_trans (by norm_num) (mul_le_mul_of_nonneg_left hs1 (by norm_num))
  have sp : 0 < Real.sin p := by linarith
  have sp' : 0 < Real.sin p' := by linarith
  have hratio : D = D' * (Real.sin p' / Real.sin p) := by
    rw [e5, e5']; field_simp
  have hDD : |D - D'| ≤ 0.00481 * D' := by
    rw [show D - D' = D' * ((Real.sin p' - Real.sin p) / Real.sin p) by rw [hratio]; field_simp,
      abs_mul, abs_of_nonneg (by linarith : 0 ≤ D'), mul_comm]
    refine mul_le_mul_of_nonneg_right ?_ (by linarith)
    rw [abs_div, abs_of_pos sp, div_le_iff₀ sp]
    refine hss.trans (le_trans (by norm_num) (mul_le_mul_of_nonneg_left hs2 (by norm_num)))
  have hDD' : |D - D'| ≤ 1.344e-5 := hDD.trans ((mul_le_mul_of_nonneg_left hD2 (by norm_num)).trans (by norm_num))
  have hD3 : |D| ≤ 0.002808 := by
    rw [show D = D' + (D - D') by ring]
    refine (abs_add_le _ _).trans ?_
    rw [abs_of_nonneg (by linarith : 0 ≤ D')]; linarith
  have hD4 : |D'| ≤ 0.002794 := by rw [abs_of_nonneg (by linarith)]; exact hD2
  have i1 : |(Real.sin p)⁻¹| ≤ 65.85 := by
    rw [abs_inv, abs_of_pos sp, inv_le_comm₀ sp (by norm_num)]; refine le_trans (by norm_num) hs2
  have i2 : |(Real.sin p')⁻¹| ≤ 65.52 := by
    rw [abs_inv, abs_of_pos sp', inv_le_comm₀ sp' (by norm_num)]; refine le_trans (by norm_num) hs1
  have k1 : |D / Real.sin p| ≤ 0.185 := by
    rw [div_eq_mul_inv]; exact (abs_mul_le' hD3 i1).trans (by norm_num)
  have k2 : |D' / Real.sin p'| ≤ 0.1831 := by
    rw [div_eq_mul_inv]; exact (abs_mul_le' hD4 i2).trans (by norm_num)
  have k3 : |D / Real.sin p - D' / Real.sin p' * Real.cos p'| ≤ 0.0018 := by
    rw [show D / Real.sin p - D' / Real.sin p' * Real.cos p' = (D - D') * (Real.sin p)⁻¹ +
      D' * ((Real.sin p' - Real.sin p) * ((Real.sin p)⁻¹ * (Real.sin p')⁻¹)) +
      D' / Real.sin p' * (1 - Real.cos p') by field_simp; ring]
    exact (abs_add_le _ _).trans ((add_le_add ((abs_add_le _ _).trans (add_le_add (abs_mul_le' hDD' i1)
      (abs_mul_le' hD4 (abs_mul_le' hss (abs_mul_le' i1 i2))))) (abs_mul_le' k2 hcos)).trans (by norm_num))
  refine ⟨hDD, hD1, hD2, ?_, ?_⟩
  · rw [show -(D / Real.sin p * (d2r * W)) - -(D' / Real.sin p' * Real.cos p' * (d2r * W')) =
      -(d2r * (D / Real.sin p * (W - W') + (D / Real.sin p - D' / Real.sin p' * Real.cos p') * W')) by ring,
      abs_neg]
    exact (abs_mul_le' hd ((abs_add_le _ _).trans (add_le_add (abs_mul_le' k1 P2') (abs_mul_le' k3 P4')))).trans (by norm_num)
  · rw [abs_neg]
    exact (abs_mul_le' (abs_mul_le' k2 (Real.abs_cos_le_one _)) (abs_mul_le' hd P4')).trans (by norm_num)

private theorem coords_near {t : ℝ} (ht : |t| ≤ 2) : Coords (moonSpherical (moonArgs id (100 * t) (100 * t)))
    (dmoonSpherical t (dmoonArgs id t) (dmoonRates t)) := by
  obtain ⟨hn, hl, hl', om1, om2⟩ := args_near ht
  obtain ⟨d1, d2⟩ := d2r_bounds
  have d0 : 0 ≤ d2r := by linarith
  have hd : |d2r| ≤ 0.017453293 := by rw [abs_of_nonneg d0]; exact d2.le
  obtain ⟨tL, tB, tP, tC⟩ := tables
  obtain ⟨q1, q2, q3, q4, q5, q6, q7, q8, q9, q10, q11, q12, q13, q14, q15, q16, q17⟩ := sums
  set a := moonArgs id (100 * t) (100 * t) with ha
  set o := dmoonArgs id t with ho
  set b := dmoonPeriodic t o with hb
  set r := dmoonPeriodicRates t o (dmoonRates t) with hr
  obtain ⟨L1, L2, -, L4⟩ := sin_series ht hn moonL dmoonL 39 tL
  obtain ⟨B1, B2, B3, B4⟩ := sin_series ht hn moonB dmoonB 29 tB
  obtain ⟨P1, P2, P3, P4⟩ := cos_series ht hn moonP (dmoonP.drop 1) 4 tP
  have p0 : dmoonP.reverse.foldl (dmoonCosTerm t b r) (0, 0) =
      (((dmoonP.drop 1).reverse.foldl (dmoonCosTerm t b r) (0, 0)).1 + 0.950724,
       ((dmoonP.drop 1).reverse.foldl (dmoonCosTerm t b r) (0, 0)).2) := by
    rw [show dmoonP.reverse = (dmoonP.drop 1).reverse ++ [⟨950724, 0, 0, 0, 0, 0⟩] from rfl, List.foldl_append]
    simp only [List.foldl, dmoonCosTerm, MoonTerm.theta, MoonTerm.c, dmoonEn, dmoonDen]
    ext <;> norm_num
  have L1' := L1.trans (add_le_add (cast_le q1 (by norm_num) (x := 0.009903) (by norm_num))
    (cast_le q2 (by norm_num) (x := 0.0073024) (by norm_num)))
  have B1' := B1.trans (add_le_add (cast_le q3 (by norm_num) (x := 0.00575) (by norm_num))
    (cast_le q4 (by norm_num) (x := 0.007681) (by norm_num)))
  have P1' := P1.trans (add_le_add (cast_le q5 (by norm_num) (x := 0.0000601) (by norm_num))
    (cast_le q6 (by norm_num) (x := 0.004119) (by norm_num)))
  have L2' := L2.trans (add_le_add (cast_le q7 (by norm_num) (x := 83.8) (by norm_num))
    (cast_le q8 (by norm_num) (x := 116.5) (by norm_num)))
  have B2' := B2.trans (add_le_add (cast_le q9 (by norm_num) (x := 50.6) (by norm_num))
    (cast_le q10 (by norm_num) (x := 166.6) (by norm_num)))
  have P2' := P2.trans (add_le_add (cast_le q11 (by norm_num) (x := 0.56) (by norm_num))
    (cast_le q12 (by norm_num) (x := 61) (by norm_num)))
  have L4' := L4.trans (cast_le q13 (by norm_num) (x := 82800) (by norm_num))
  have B3' := B3.trans (cast_le q14 (by norm_num) (x := 6.0821) (by norm_num))
  have B4' := B4.trans (cast_le q15 (by norm_num) (x := 52330) (by norm_num))
  have P3' := P3.trans (cast_le q16 (by norm_num) (x := 0.07614) (by norm_num))
  have P4' := P4.trans (cast_le q17 (by norm_num) (x := 731) (by norm_num))
  clear q1 q2 q3 q4 q5 q6 q7 q8 q9 q10 q11 q12 q13 q14 q15 q16 q17 L1 B1 P1 L2 B2 P2 L4 B3 B4 P3 P4 tL tB tP tC
  set s := moonSpherical a with hs
  set s' := dmoonSpherical t o (dmoonRates t) with hs'
  set bf := 1 - 0.0004664 * Real.cos o.om - 0.0000754 * Real.cos (dmoonWom t o) with hbf
  set dbf := 0.0004664 * (dmoonRates t).om * Real.sin o.om +
    0.0000754 * dmoonDwom (dmoonRates t) * Real.sin (dmoonWom t o) with hdbf
  have hbf1 : |1 - bf| ≤ 0.0005418 := by
    have h1 := abs_le.mp (Real.abs_cos_le_one o.om)
    have h2 := abs_le.mp (Real.abs_cos_le_one (dmoonWom t o))
    rw [hbf, abs_le]; constructor <;> linarith [h1.1, h1.2, h2.1, h2.2]
  have hbf2 : |bf| ≤ 1.0005418 := by
    rw [abs_le] at hbf1 ⊢; constructor <;> linarith [hbf1.1, hbf1.2]
  have hdbf1 : |dbf| ≤ 0.0183 := by
    rw [hdbf]
    refine (abs_add_le _ _).trans ((add_le_add (abs_mul_le' (abs_mul_le' (X := 0.0004664) (by norm_num) om1)
      (Real.abs_sin_le_one _)) (abs_mul_le' (abs_mul_le' (X := 0.0000754) (by norm_num) om2)
      (Real.abs_sin_le_one _))).trans (by norm_num))
  -- the code's expressions
  have e1 : s.long = (moonL.reverse.foldl (moonSinTerm a) (0, 0)).1 * d2r + a.elp := rfl
  have e1' : s'.long = b.elp + d2r * (dmoonL.reverse.foldl (dmoonSinTerm t b r) (0, 0)).1 := rfl
  have e2 : s.lat = (moonB.reverse.foldl (moonSinTerm a) (0, 0)).1 * d2r := rfl
  have e2' : s'.lat = d2r * (dmoonB.reverse.foldl (dmoonSinTerm t b r) (0, 0)).1 * bf := rfl
  have e3 : cy * s.dlong = d2r * (100 * d2r * (moonL.reverse.foldl (moonSinTerm a) (0, 0)).2 + 481267.8831) := by
    have : s.dlong = moonRate * ((moonL.reverse.foldl (moonSinTerm a) (0, 0)).2 + 4812.678831 / d2r) := rfl
    have hd' : d2r ≠ 0 := by linarith
    rw [this, moonRate, cy]
    field_simp
    ring
  have e3' : cy * s'.dlong = r.elp + d2r * (dmoonL.reverse.foldl (dmoonSinTerm t b r) (0, 0)).2 := by
    have : s'.dlong = (r.elp + d2r * (dmoonL.reverse.foldl (dmoonSinTerm t b r) (0, 0)).2) / 3155760000 := rfl
    rw [this, cy]; ring
  have e4 : cy * s.dlat = d2r * (100 * d2r * (moonB.reverse.foldl (moonSinTerm a) (0, 0)).2) := by
    have : s.dlat = (moonB.reverse.foldl (moonSinTerm a) (0, 0)).2 * moonRate := rfl
    rw [this, moonRate, cy]; ring
  have e4' : cy * s'.dlat = d2r * ((dmoonB.reverse.foldl (dmoonSinTerm t b r) (0, 0)).2 * bf +
      (dmoonB.reverse.foldl (dmoonSinTerm t b r) (0, 0)).1 * dbf) := by
    have : s'.dlat = d2r * ((dmoonB.reverse.foldl (dmoonSinTerm t b r) (0, 0)).2 * bf +
      (dmoonB.reverse.foldl (dmoonSinTerm t b r) (0, 0)).1 * dbf) / 3155760000 := rfl
    rw [this, cy]; ring
  set W := 100 * d2r * (moonP.reverse.foldl (moonCosTerm a) (0, 0)).2 with hW
  set W' := ((dmoonP.drop 1).reverse.foldl (dmoonCosTerm t b r) (0, 0)).2 with hW'
  set q := (moonP.reverse.foldl (moonCosTerm a) (0, 0)).1 with hq
  set q' := ((dmoonP.drop 1).reverse.foldl (dmoonCosTerm t b r) (0, 0)).1 with hq'
  set p := (q + 0.950724) * d2r with hp
  set p' := d2r * (q' + 0.950724) with hp'
  have e5 : s.dist = 4.2635212653763e-5 / Real.sin p := rfl
  have e5' : s'.dist = 4.2635212653763e-5 / Real.sin p' := by
    have : s'.dist = 4.2635212653763e-5 / Real.sin (d2r * (dmoonP.reverse.foldl (dmoonCosTerm t b r) (0, 0)).1) := rfl
    rw [this, p0]
  have e6 : cy * s.ddist = -(s.dist / Real.sin p * (d2r * W)) := by
    have : s.ddist = -s.dist * ((moonP.reverse.foldl (moonCosTerm a) (0, 0)).2 * moonRate) / Real.sin p := rfl
    rw [this, moonRate, cy, hW]; ring
  have e6' : cy * s'.ddist = -(s'.dist / Real.sin p' * Real.cos p' * (d2r * W')) := by
    have : s'.ddist = -s'.dist * (d2r * (dmoonP.reverse.foldl (dmoonCosTerm t b r) (0, 0)).2 / 3155760000) *
      Real.cos (d2r * (dmoonP.reverse.foldl (dmoonCosTerm t b r) (0, 0)).1) /
      Real.sin (d2r * (dmoonP.reverse.foldl (dmoonCosTerm t b r) (0, 0)).1) := rfl
    rw [this, p0, cy]; ring
  obtain ⟨c1, c2, c3, c4, c5⟩ := distance_near P1' P2' P3' P4'
  rw [← e5, ← e5'] at c4
  rw [← e5'] at c5
  refine ⟨?_, ?_, by rw [e5, e5']; exact c1, by rw [e5']; exact c2, by rw [e5']; exact c3, ?_, ?_, by rw [e6, e6']; exact c4, ?_, ?_,
    by rw [e6']; exact c5⟩
  all_goals clear c1 c2 c3 c4 c5 e5 e5' e6 e6'
  · rw [e1, e1', show ∀ x y z w : ℝ, x * d2r + y - (z + d2r * w) = (y - z) + d2r * (x - w) from fun x y z w => by ring]
    have := mul_le_mul_of_nonneg_left L1' d0
    rw [← abs_of_nonneg d0, ← abs_mul, abs_of_nonneg d0] at this
    refine (abs_add_le _ _).trans ((add_le_add hl this).trans ?_)
    rw [← mul_add]; exact mul_le_mul_of_nonneg_left (by norm_num) d0
  · rw [e2, e2', show ∀ x w : ℝ, x * d2r - d2r * w * bf = d2r * ((x - w) + w * (1 - bf)) from fun x w => by ring,
      abs_mul, abs_of_nonneg d0]
    exact mul_le_mul_of_nonneg_left ((abs_add_le _ _).trans ((add_le_add B1' (abs_mul_le' B3' hbf1)).trans (by norm_num))) d0
  · rw [e3, e3', show ∀ x y z : ℝ, d2r * (x + 481267.8831) - (y + d2r * z) = (d2r * 481267.8831 - y) + d2r * (x - z) from
      fun x y z => by ring]
    refine (abs_add_le _ _).trans ((add_le_add hl' (abs_mul_le' hd L2')).trans ?_)
    refine (add_le_add_left (mul_le_mul_of_nonneg_right d2.le (by norm_num)) _).trans (by norm_num)
  · rw [e4, e4', show ∀ x y z : ℝ, d2r * x - d2r * (y * bf + z * dbf) = d2r * ((x - y) + y * (1 - bf) - z * dbf) from
      fun x y z => by ring]
    refine (abs_mul_le' hd ((abs_sub _ _).trans (add_le_add ((abs_add_le _ _).trans (add_le_add B2'
      (abs_mul_le' B4' hbf1))) (abs_mul_le' B3' hdbf1)))).trans (by norm_num)
  · rw [e3', show ∀ y z : ℝ, y + d2r * z = d2r * 481267.8831 - (d2r * 481267.8831 - y) + d2r * z from fun y z => by ring]
    refine (abs_add_le _ _).trans ((add_le_add ((abs_sub _ _).trans (add_le_add (abs_mul_le' hd le_rfl) hl'))
      (abs_mul_le' hd L4')).trans ?_)
    refine (add_le_add_left (add_le_add_right (mul_le_mul_of_nonneg_right d2.le (by norm_num)) _) _).trans (by norm_num [abs_of_pos])
  · rw [e4']
    exact (abs_mul_le' hd ((abs_add_le _ _).trans (add_le_add (abs_mul_le' B4' hbf2) (abs_mul_le' B3' hdbf1)))).trans
      (by norm_num)

/-! ### Vectors -/

private theorem direction_sub (l b l' b' : ℝ) : len (direction l b - direction l' b') ^ 2 ≤ (l - l') ^ 2 + (b - b') ^ 2 := by
  have e : len (direction l b - direction l' b') ^ 2 =
      2 * (1 - Real.cos (b - b')) + 2 * (Real.cos b * Real.cos b') * (1 - Real.cos (l - l')) := by
    rw [len_sq, Real.cos_sub, Real.cos_sub, direction_eq, direction_eq]
    have h1 := Real.sin_sq_add_cos_sq l
    have h2 := Real.sin_sq_add_cos_sq l'
    have h3 := Real.sin_sq_add_cos_sq b
    have h4 := Real.sin_sq_add_cos_sq b'
    simp only [dotProduct, Fin.sum_univ_three]
    simp
    linear_combination Real.cos b ^ 2 * h1 + Real.cos b' ^ 2 * h2 + h3 + h4
  have h1 := Real.one_sub_sq_div_two_le_cos (x := b - b')
  have h2 := Real.one_sub_sq_div_two_le_cos (x := l - l')
  have h3 := Real.cos_le_one (l - l')
  have h4 : Real.cos b * Real.cos b' ≤ 1 := by
    have := abs_mul_le' (Real.abs_cos_le_one b) (Real.abs_cos_le_one b')
    linarith [(abs_le.mp this).2]
  rw [e]
  have h5 : 2 * (Real.cos b * Real.cos b') * (1 - Real.cos (l - l')) ≤ 2 * (1 - Real.cos (l - l')) := by
    have : 0 ≤ 1 - Real.cos (l - l') := by linarith
    nlinarith
  linarith

private theorem north_direction (l b : ℝ) : north l b = direction l (b + π / 2) := by
  rw [north_eq, direction_eq, Real.cos_add_pi_div_two, Real.sin_add_pi_div_two]
  funext i; fin_cases i <;> simp

private theorem east_direction (l : ℝ) : east l = direction (l + π / 2) 0 := by
  rw [east_eq, direction_eq, Real.cos_add_pi_div_two, Real.sin_add_pi_div_two]
  funext i; fin_cases i <;> simp

private theorem velocity_eq (s : SphericalPV) : (ds2c6 s).vel = s.ddist • direction s.long s.lat +
    ((s.dist * s.dlat) • north s.long s.lat + (s.dist * Real.cos s.lat * s.dlong) • east s.long) := by
  rw [direction_eq, north_eq, east_eq]
  funext i
  fin_cases i <;> simp [ds2c6] <;> ring

private theorem smul_sub_le {x y : ℝ} {u v : Vec} (hu : len u = 1) : len (x • u - y • v) ≤ |x - y| + |y| * len (u - v) := by
  rw [show x • u - y • v = (x - y) • u + y • (u - v) by rw [sub_smul, smul_sub]; abel]
  refine (len_add_le _ _).trans ?_
  rw [len_smul, len_smul, hu, mul_one]

private theorem len_le_sqrt {v : Vec} {X : ℝ} (hX : 0 ≤ X) (h : len v ^ 2 ≤ X ^ 2) : len v ≤ X :=
  abs_le_of_sq_le_sq' h hX |>.2

private theorem vectors_near {s s' : SphericalPV} (h : Coords s s') :
    len (direction s.long s.lat - direction s'.long s'.lat) ≤ 0.00056807 ∧
    len ((ds2c6 s).vel - (ds2c6 s').vel) ≤ 1.34e-10 ∧ len (ds2c6 s').vel ≤ 1.1e-8 := by
  obtain ⟨d1, d2⟩ := d2r_bounds
  have hd : |d2r| ≤ 0.017453293 := by rw [abs_of_nonneg (by linarith)]; exact d2.le
  have hl : |s.long - s'.long| ≤ 0.000487244 := h.long.trans ((mul_le_mul_of_nonneg_right d2.le (by norm_num)).trans (by norm_num))
  have hb : |s.lat - s'.lat| ≤ 0.000292046 := h.lat.trans ((mul_le_mul_of_nonneg_right d2.le (by norm_num)).trans (by norm_num))
  have hl2 := sq_le_sq' (abs_le.mp hl).1 (abs_le.mp hl).2
  have hb2 := sq_le_sq' (abs_le.mp hb).1 (abs_le.mp hb).2
  have hX : ∀ v : Vec, len v ^ 2 ≤ (s.long - s'.long) ^ 2 + (s.lat - s'.lat) ^ 2 → len v ≤ 0.00056807 := fun v hv =>
    len_le_sqrt (by norm_num) (hv.trans ((add_le_add hl2 hb2).trans (by norm_num)))
  have n1 := hX _ (direction_sub s.long s.lat s'.long s'.lat)
  have n2 : len (north s.long s.lat - north s'.long s'.lat) ≤ 0.00056807 := by
    rw [north_direction, north_direction]
    refine hX _ ((direction_sub _ _ _ _).trans (le_of_eq (by ring)))
  have n3 : len (east s.long - east s'.long) ≤ 0.00056807 := by
    rw [east_direction, east_direction]
    refine hX _ ((direction_sub _ _ _ _).trans ?_)
    nlinarith [sq_nonneg (s.lat - s'.lat)]
  have u1 : ∀ l b, len (direction l b) = 1 := len_direction
  have u2 : ∀ l b, len (north l b) = 1 := fun l b => by rw [north_direction]; exact u1 _ _
  have u3 : ∀ l, len (east l) = 1 := fun l => by rw [east_direction]; exact u1 _ _
  refine ⟨n1, ?_⟩
  have hD : |s'.dist| ≤ 0.002794 := by rw [abs_of_nonneg (by linarith [h.near])]; exact h.far
  have hDD : |s.dist - s'.dist| ≤ 1.344e-5 := h.dist.trans ((mul_le_mul_of_nonneg_left h.far (by norm_num)).trans (by norm_num))
  have hD1 : |s.dist| ≤ 0.002808 := by
    rw [show s.dist = s'.dist + (s.dist - s'.dist) by ring]
    exact (abs_add_le _ _).trans ((add_le_add hD hDD).trans (by norm_num))
  have hcc : |Real.cos s.lat - Real.cos s'.lat| ≤ 0.000292046 := (cos_lip _ _).trans hb
  have hc := Real.abs_cos_le_one s.lat
  have hc' := Real.abs_cos_le_one s'.lat
  have cy0 : 0 < cy := by norm_num [cy]
  -- the three components
  have A : |cy * (s.dist * s.dlat) - cy * (s'.dist * s'.dlat)| ≤ 0.02434 := by
    rw [show cy * (s.dist * s.dlat) - cy * (s'.dist * s'.dlat) = s.dist * (cy * s.dlat - cy * s'.dlat) +
      (s.dist - s'.dist) * (cy * s'.dlat) by ring]
    exact (abs_add_le _ _).trans ((add_le_add (abs_mul_le' hD1 h.dlat) (abs_mul_le' hDD h.rlat)).trans (by norm_num))
  have A' : |cy * (s'.dist * s'.dlat)| ≤ 2.554 := by
    rw [show cy * (s'.dist * s'.dlat) = s'.dist * (cy * s'.dlat) by ring]
    exact (abs_mul_le' hD h.rlat).trans (by norm_num)
  have B : |cy * (s.dist * Real.cos s.lat * s.dlong) - cy * (s'.dist * Real.cos s'.lat * s'.dlong)| ≤ 0.1503 := by
    rw [show cy * (s.dist * Real.cos s.lat * s.dlong) - cy * (s'.dist * Real.cos s'.lat * s'.dlong) =
      s.dist * Real.cos s.lat * (cy * s.dlong - cy * s'.dlong) + (s.dist - s'.dist) * Real.cos s.lat * (cy * s'.dlong) +
      s'.dist * (Real.cos s.lat - Real.cos s'.lat) * (cy * s'.dlong) by ring]
    exact (abs_add_le _ _).trans ((add_le_add ((abs_add_le _ _).trans (add_le_add (abs_mul_le' (abs_mul_le' hD1 hc) h.dlong)
      (abs_mul_le' (abs_mul_le' hDD hc) h.rlong))) (abs_mul_le' (abs_mul_le' hD hcc) h.rlong)).trans (by norm_num))
  have B' : |cy * (s'.dist * Real.cos s'.lat * s'.dlong)| ≤ 27.51 := by
    rw [show cy * (s'.dist * Real.cos s'.lat * s'.dlong) = s'.dist * Real.cos s'.lat * (cy * s'.dlong) by ring]
    exact (abs_mul_le' (abs_mul_le' hD hc') h.rlong).trans (by norm_num)
  have scale : ∀ s : SphericalPV, cy • (ds2c6 s).vel = (cy * s.ddist) • direction s.long s.lat +
      ((cy * (s.dist * s.dlat)) • north s.long s.lat + (cy * (s.dist * Real.cos s.lat * s.dlong)) • east s.long) := fun s => by
    rw [velocity_eq, smul_add, smul_add, smul_smul, smul_smul, smul_smul]
  have key : ∀ {v : Vec} {X : ℝ}, len (cy • v) ≤ X → len v ≤ X / cy := fun {v X} hv => by
    rw [len_smul, abs_of_pos cy0] at hv
    rw [le_div_iff₀ cy0]; linarith
  constructor
  · refine (key (X := 0.4173) ?_).trans (by norm_num [cy])
    rw [smul_sub, scale, scale, show ∀ a b c a' b' c' : Vec, a + (b + c) - (a' + (b' + c')) = (a - a') + ((b - b') + (c - c'))
      from fun a b c a' b' c' => by abel]
    refine (len_add_le _ _).trans ((add_le_add ((smul_sub_le (u1 _ _)).trans (add_le_add h.ddist
      (mul_le_mul h.rdist n1 (len_nonneg _) (by norm_num)))) ((len_add_le _ _).trans (add_le_add
      ((smul_sub_le (u2 _ _)).trans (add_le_add A (mul_le_mul A' n2 (len_nonneg _) (by norm_num))))
      ((smul_sub_le (u3 _)).trans (add_le_add B (mul_le_mul B' n3 (len_nonneg _) (by norm_num))))))).trans (by norm_num))
  · refine (key (X := 32.5) ?_).trans (by norm_num [cy])
    rw [scale]
    refine (len_add_le _ _).trans ?_
    have b2 := len_add_le ((cy * (s'.dist * s'.dlat)) • north s'.long s'.lat)
      ((cy * (s'.dist * Real.cos s'.lat * s'.dlong)) • east s'.long)
    rw [len_smul, len_smul, u2, u3] at b2
    rw [len_smul, u1]
    linarith [h.rdist]

/-! ### Frames -/

private theorem equator_len' (t : ℝ) (v : Vec) : len (moonEquator t v) = len v := by
  rw [len, len]
  congr 1
  have hs := Real.sin_sq_add_cos_sq (d2r * (23.45229 - 0.00013 * t))
  simp only [moonEquator, dotProduct, Fin.sum_univ_three]
  simp
  linear_combination (v 1 ^ 2 + v 2 ^ 2) * hs

private theorem equator_sub (t : ℝ) (u v : Vec) : moonEquator t u - moonEquator t v = moonEquator t (u - v) := by
  funext i
  fin_cases i <;> simp [moonEquator] <;> ring

private theorem equator_smul (t k : ℝ) (v : Vec) : moonEquator t (k • v) = k • moonEquator t v := by
  funext i
  fin_cases i <;> simp [moonEquator] <;> ring

private theorem frames_near {date : ℝ} (h : |date - 15019.5| ≤ 73050) (v : Vec) :
    len (moonEquator ((date - 15019.5) / 365.25) v - eclipticToEquator date *ᵥ v) ≤ 1.346e-5 * len v := by
  obtain ⟨h1, h2⟩ := abs_le.mp h
  set T := (date - 15019.5) / 365.25 with hT
  have hT1 : |T / 100| ≤ 2 := by
    rw [hT, div_div, abs_div, abs_of_pos (by norm_num : (0 : ℝ) < 365.25 * 100), div_le_iff₀ (by norm_num)]
    exact h.trans (by norm_num)
  obtain ⟨x, hx⟩ : ∃ x : ℝ, x = T / 100 - 1 := ⟨_, rfl⟩
  obtain ⟨t1, t2⟩ := abs_le.mp hT1
  have pi1 := Real.pi_lt_d4
  have pi0 := Real.pi_pos
  have hq : |equinoxCorrection date| ≤ 1.291e-5 := by
    have e : equinoxCorrection date = π / 43200 * (0.035 + 0.00085 * (T - 49.9997904423)) := by
      simp only [equinoxCorrection, hT]; ring
    rw [e, abs_mul, abs_of_pos (by positivity)]
    have b1 : π / 43200 ≤ 7.27225e-5 := by linarith
    have b2 : |0.035 + 0.00085 * (T - 49.9997904423)| ≤ 0.1775 := by
      rw [abs_le]; constructor <;> linarith
    exact (mul_le_mul b1 b2 (abs_nonneg _) (by norm_num)).trans (by norm_num)
  have he : |d2r * (23.45229 - 0.00013 * T) - meanObliquity date| ≤ 5.4e-7 := by
    have e : d2r * (23.45229 - 0.00013 * T) - meanObliquity date =
        π / 648000 * (-0.004 + 0.015 * x + 0.00059 * x ^ 2 - 0.001813 * x ^ 3) := by
      have : (date - 51544.5) / 36525 = x := by rw [hx, hT]; ring
      have hT' : T = 100 * (x + 1) := by rw [hx]; ring
      simp only [meanObliquity, this, d2r, hT']; ring
    rw [e, abs_mul, abs_of_pos (by positivity)]
    have x1 : -3 ≤ x := by linarith
    have x2 : x ≤ 1 := by linarith
    have x3 : 0 ≤ x ^ 2 := sq_nonneg x
    have x4 : x ^ 2 ≤ 9 := by nlinarith
    have x5 : |x ^ 3| ≤ 27 := by
      rw [abs_pow]; exact (pow_le_pow_left₀ (abs_nonneg x) (abs_le.mpr ⟨x1, by linarith⟩ : |x| ≤ 3) 3).trans (by norm_num)
    have b2 : |-0.004 + 0.015 * x + 0.00059 * x ^ 2 - 0.001813 * x ^ 3| ≤ 0.11 := by
      obtain ⟨y1, y2⟩ := abs_le.mp x5
      rw [abs_le]; constructor <;> linarith
    have b1 : π / 648000 ≤ 4.8482e-6 := by linarith
    exact (mul_le_mul b1 b2 (abs_nonneg _) (by norm_num)).trans (by norm_num)
  set e := meanObliquity date
  set q := equinoxCorrection date
  set c := Real.cos (d2r * (23.45229 - 0.00013 * T)) - Real.cos e with hc
  set s := Real.sin (d2r * (23.45229 - 0.00013 * T)) - Real.sin e with hs
  have hcs : c ^ 2 + s ^ 2 ≤ 5.4e-7 ^ 2 := by
    have e1 : c ^ 2 + s ^ 2 = 2 * (1 - Real.cos (d2r * (23.45229 - 0.00013 * T) - e)) := by
      rw [hc, hs, Real.cos_sub]
      linear_combination Real.sin_sq_add_cos_sq (d2r * (23.45229 - 0.00013 * T)) + Real.sin_sq_add_cos_sq e
    have := Real.one_sub_sq_div_two_le_cos (x := d2r * (23.45229 - 0.00013 * T) - e)
    have h3 := sq_le_sq' (abs_le.mp he).1 (abs_le.mp he).2
    rw [e1]; linarith
  have split : moonEquator T v - eclipticToEquator date *ᵥ v =
      q • ![Real.cos e * v 1 - Real.sin e * v 2, -v 0, 0] + ![0, c * v 1 - s * v 2, s * v 1 + c * v 2] := by
    funext i
    fin_cases i <;> simp [moonEquator, eclipticToEquator, Matrix.mulVec, dotProduct, Fin.sum_univ_three, hc, hs] <;> ring
  have hv := len_sq v
  simp only [dotProduct, Fin.sum_univ_three] at hv
  have l1 : len ![Real.cos e * v 1 - Real.sin e * v 2, -v 0, 0] ≤ len v := by
    refine len_le_sqrt (len_nonneg v) ?_
    rw [len_sq, hv]
    simp only [dotProduct, Fin.sum_univ_three]
    simp
    nlinarith [Real.sin_sq_add_cos_sq e, sq_nonneg (Real.sin e * v 1 + Real.cos e * v 2)]
  have l2 : len ![0, c * v 1 - s * v 2, s * v 1 + c * v 2] ≤ 5.4e-7 * len v := by
    refine len_le_sqrt (mul_nonneg (by norm_num) (len_nonneg v)) ?_
    rw [len_sq, mul_pow, hv]
    simp only [dotProduct, Fin.sum_univ_three]
    simp
    have : (c * v 1 - s * v 2) * (c * v 1 - s * v 2) + (s * v 1 + c * v 2) * (s * v 1 + c * v 2) =
      (c ^ 2 + s ^ 2) * (v 1 * v 1 + v 2 * v 2) := by ring
    rw [this]
    refine mul_le_mul (hcs.trans (by norm_num)) (by nlinarith [mul_self_nonneg (v 0)])
      (add_nonneg (mul_self_nonneg _) (mul_self_nonneg _)) (by norm_num)
  rw [split]
  refine (len_add_le _ _).trans ?_
  rw [len_smul]
  have := mul_le_mul hq l1 (len_nonneg _) (by norm_num)
  linarith [len_nonneg v]

/-! ### Angles -/

/-- A vector near a unit vector is at a small angle to it. -/
private theorem angle_le {u v : Vec} {δ : ℝ} (hu : len u = 1) (h0 : 0 < δ) (hδ : δ ≤ 0.01) (h : len (u - v) ≤ δ) :
    angleBetween u v ≤ 1.0001 * δ := by
  have hu2 : u ⬝ᵥ u = 1 := by rw [← len_sq, hu]; norm_num
  have hx : len v ^ 2 - 2 * (u ⬝ᵥ v) + 1 ≤ δ ^ 2 := by
    have := pow_le_pow_left₀ (len_nonneg _) h 2
    rw [len_sq, sub_dotProduct, dotProduct_sub, dotProduct_sub, hu2, dotProduct_comm v u, ← len_sq v] at this
    linarith
  have hv : 0 < len v := by
    rcases (len_nonneg v).eq_or_lt with h1 | h1
    · exfalso
      have := abs_dot_le (d := u) (e := v) hu
      rw [← h1] at this hx
      have h2 := abs_nonpos_iff.mp this
      rw [h2] at hx
      nlinarith
    · exact h1
  have hs : δ ≤ Real.sin (1.0001 * δ) := by
    have := Real.sin_gt_sub_cube (by positivity : 0 < 1.0001 * δ)
    have h3 : (1.0001 * δ) ^ 3 / 6 ≤ 0.0001 * δ := by
      have : (1.0001 * δ) ^ 3 = 1.0001 ^ 3 * δ * δ ^ 2 := by ring
      rw [this]
      have h4 : δ ^ 2 ≤ 0.0001 := by nlinarith
      nlinarith [mul_le_mul_of_nonneg_left h4 h0.le]
    linarith
  have hcc : Real.cos (1.0001 * δ) ^ 2 ≤ 1 - δ ^ 2 := by
    have := Real.sin_sq_add_cos_sq (1.0001 * δ)
    nlinarith
  have hc0 : 0 ≤ Real.cos (1.0001 * δ) :=
    Real.cos_nonneg_of_neg_pi_div_two_le_of_le (by nlinarith [Real.pi_pos]) (by nlinarith [Real.pi_gt_three])
  have hcos : Real.cos (1.0001 * δ) ≤ (u ⬝ᵥ v) / len v := by
    rw [le_div_iff₀ hv]
    nlinarith [sq_nonneg (len v - Real.cos (1.0001 * δ))]
  unfold angleBetween InnerProductGeometry.angle
  rw [norm_toLp, norm_toLp, inner_toLp]
  have e : (u ⬝ᵥ v) / (len u * len v) = (u ⬝ᵥ v) / len v := by rw [hu, one_mul]
  refine (Real.arccos_le_arccos (x := Real.cos (1.0001 * δ)) ?_).trans (le_of_eq (Real.arccos_cos (by positivity) ?_))
  · exact hcos.trans (le_of_eq e.symm)
  · nlinarith [Real.pi_gt_three]

/-! ### The property -/

/-- From 1700 to 2100 the two routines agree on the place of the Moon to two arcminutes and half a percent of the distance,
    and on its velocity to 1.35e-10 AU per second (twenty metres per second, two percent). -/
theorem C92_moon {D : YMD} (hv : D.Valid) (hy : -4699 ≤ D.year) (f old : ℝ) (a b : ℤ)
    (h : |(cldj D.year D.month D.day old).2 + f - 15019.5| ≤ 73050) :
    (fun m d : VectorPV => angleBetween m.pos d.pos ≤ 2 / 60 * (π / 180) ∧ |len m.pos - len d.pos| ≤ 0.005 * len d.pos ∧
      len (m.vel - d.vel) ≤ 1.35e-10)
    (moon (clyd D.year D.month D.day a b).2.1 (clyd D.year D.month D.day a b).2.2 f)
    (dmoon ((cldj D.year D.month D.day old).2 + f)) := by
  rw [moon_of_date hv hy f old a b, dmoon_of_date]
  generalize (cldj D.year D.month D.day old).2 + f = date at h
  have ht : |(date - 15019.5) / 36525| ≤ 2 := by
    rw [abs_div, abs_of_pos (by norm_num : (0 : ℝ) < 36525), div_le_iff₀ (by norm_num)]
    exact h.trans (by norm_num)
  have e : (date - 15019.5) / 365.25 = 100 * ((date - 15019.5) / 36525) := by ring
  have hc := coords_near ht
  rw [← e] at hc
  have hf := frames_near h
  obtain ⟨v1, v2, v3⟩ := vectors_near hc
  dsimp only
  generalize moonSpherical _ = s at *
  generalize dmoonSpherical _ _ _ = s' at *
  generalize (date - 15019.5) / 365.25 = T at *
  have pos : ∀ s : SphericalPV, (ds2c6 s).pos = s.dist • direction s.long s.lat := fun s => by
    rw [direction_eq]; funext i; fin_cases i <;> simp [ds2c6] <;> ring
  set u := moonEquator T (direction s.long s.lat) with hu
  set w := eclipticToEquator date *ᵥ direction s'.long s'.lat with hw
  have lu : len u = 1 := by rw [hu, equator_len', len_direction]
  have huw : len (u - w) ≤ 0.00058153 := by
    rw [show u - w = moonEquator T (direction s.long s.lat - direction s'.long s'.lat) +
      (moonEquator T (direction s'.long s'.lat) - w) by rw [← equator_sub]; abel]
    have := hf (direction s'.long s'.lat)
    rw [len_direction] at this
    refine (len_add_le _ _).trans ?_
    rw [equator_len']
    linarith
  have lw : |len w - 1| ≤ 1.346e-5 := by
    have h1 := hf (direction s'.long s'.lat)
    rw [← hw, len_direction] at h1
    have h2 : len (moonEquator T (direction s'.long s'.lat)) = 1 := by rw [equator_len', len_direction]
    have h3 := len_sub_le (moonEquator T (direction s'.long s'.lat)) (moonEquator T (direction s'.long s'.lat) - w)
    have h4 := len_add_le (moonEquator T (direction s'.long s'.lat) - w) w
    rw [sub_sub_cancel] at h3
    rw [sub_add_cancel] at h4
    rw [abs_le]; constructor <;> linarith
  have hD1 := hc.near
  have hD2 := abs_le.mp hc.dist
  have hd : 0 < s.dist := by nlinarith [hD2.1]
  rw [pos, pos, equator_smul, mulVec_smul, ← hu, ← hw]
  refine ⟨?_, ?_, ?_⟩
  · have : angleBetween (s.dist • u) (s'.dist • w) = angleBetween u w := by
      simp only [angleBetween, WithLp.toLp_smul]
      rw [InnerProductGeometry.angle_smul_left_of_pos _ _ hd, InnerProductGeometry.angle_smul_right_of_pos _ _ (by linarith)]
    rw [this]
    refine (angle_le lu (by norm_num) (by norm_num) huw).trans ?_
    have := Real.pi_gt_d4
    linarith
  · rw [len_smul, len_smul, lu, mul_one, abs_of_pos hd, abs_of_pos (by linarith : 0 < s'.dist)]
    obtain ⟨w1, w2⟩ := abs_le.mp lw
    rw [abs_le]
    constructor <;> nlinarith [hD2.1, hD2.2]
  · rw [show moonEquator T (ds2c6 s).vel - eclipticToEquator date *ᵥ (ds2c6 s').vel =
      moonEquator T ((ds2c6 s).vel - (ds2c6 s').vel) + (moonEquator T (ds2c6 s').vel - eclipticToEquator date *ᵥ (ds2c6 s').vel)
      by rw [← equator_sub]; abel]
    have := hf (ds2c6 s').vel
    refine (len_add_le _ _).trans ?_
    rw [equator_len']
    linarith

example : (⟨1969, 7, 20⟩ : YMD).Valid ∧ |(cldj 1969 7 20 0).2 + 0.84 - 15019.5| ≤ 73050 := by
  refine ⟨by decide, ?_⟩
  have : (cldj 1969 7 20 0).2 = 40422 := by
    have h : cldjExpr 1969 7 20 = 40422 := by decide
    rw [cldj, if_pos (by decide), if_pos (by decide), h]; norm_num
  rw [this, abs_le]; constructor <;> norm_num

end Sla.Props
