import Verif.Props.FpPlate
import Verif.Props.FpSeparation
import Verif.Spec.FpLib
import Mathlib.Analysis.SpecialFunctions.Trigonometric.Bounds
import Mathlib.Analysis.Complex.ExponentialBounds

/-
Property theorem C117: the accuracy of `unpcd` in double precision.
-/
namespace Sla.Props
open Sla.Fp Sla.Spec

/-- `a` is `x` with relative error at most `k`. -/
private def Rl (a x k : ℝ) : Prop := |a - x| ≤ k * |x|

private theorem rl_self (x : ℝ) : Rl x x 0 := by unfold Rl; simp

private theorem rl_round {R : ℝ → ℝ} (hR : Dbl R) {a x k m : ℝ} (h : Rl a x k) (hx : 1e-100 ≤ |x|)
    (hk : k + 1.2e-16 * (1 + k) + 1e-90 ≤ m) : Rl (R a) x m := by
  unfold Rl at *
  have h1 := hR a
  have h2 : |a| ≤ |x| + k * |x| := by
    have := abs_sub_abs_le_abs_sub a x; linarith
  have h3 := abs_sub_le (R a) a x
  have h4 := mul_le_mul_of_nonneg_right hk (abs_nonneg x)
  norm_num at h1 h2 h3 h4 hx ⊢
  linarith

private theorem rl_mul {a x k b y m n : ℝ} (h : Rl a x k) (h' : Rl b y m) (hk : 0 ≤ k) (hn : k + m + k * m ≤ n) :
    Rl (a * b) (x * y) n := by
  unfold Rl at *
  have e : a * b - x * y = (a - x) * (b - y) + (a - x) * y + x * (b - y) := by ring
  have h1 : |(a - x) * (b - y)| ≤ (k * |x|) * (m * |y|) := by
    rw [abs_mul]; exact mul_le_mul h h' (abs_nonneg _) (mul_nonneg hk (abs_nonneg _))
  have h2 : |(a - x) * y| ≤ (k * |x|) * |y| := by
    rw [abs_mul]; exact mul_le_mul_of_nonneg_right h (abs_nonneg _)
  have h3 : |x * (b - y)| ≤ |x| * (m * |y|) := by
    rw [abs_mul]; exact mul_le_mul_of_nonneg_left h' (abs_nonneg _)
  have h4 := mul_le_mul_of_nonneg_right hn (mul_nonneg (abs_nonneg x) (abs_nonneg y))
  rw [e, abs_mul x y]
  have := abs_add_three ((a - x) * (b - y)) ((a - x) * y) (x * (b - y))
  nlinarith

private theorem rl_div {a x k b y m n : ℝ} (h : Rl a x k) (h' : Rl b y m) (hy : y ≠ 0) (hm : m < 1)
    (hn : k + m ≤ n * (1 - m)) : Rl (a / b) (x / y) n := by
  unfold Rl at *
  have y0 := abs_pos.2 hy
  have hb : (1 - m) * |y| ≤ |b| := by
    have := abs_sub_abs_le_abs_sub y b; rw [abs_sub_comm] at this; linarith
  have b0 : 0 < |b| := lt_of_lt_of_le (mul_pos (by linarith) y0) hb
  have hb0 : b ≠ 0 := abs_pos.1 b0
  have e : a / b - x / y = ((a - x) * y - x * (b - y)) / (b * y) := by field_simp; ring
  have h1 : |(a - x) * y - x * (b - y)| ≤ (k + m) * (|x| * |y|) := by
    have t := abs_sub ((a - x) * y) (x * (b - y))
    rw [abs_mul, abs_mul] at t
    have t1 := mul_le_mul_of_nonneg_right h (abs_nonneg y)
    have t2 := mul_le_mul_of_nonneg_left h' (abs_nonneg x)
    nlinarith
  rw [e, abs_div, abs_mul b y, abs_div, div_le_iff₀ (mul_pos b0 y0)]
  have e2 : n * (|x| / |y|) * (|b| * |y|) = n * |x| * |b| := by field_simp
  rw [e2]
  refine h1.trans ?_
  have xn := abs_nonneg x
  have t3 := mul_le_mul_of_nonneg_right hn (mul_nonneg xn y0.le)
  by_cases hx : |x| = 0
  · rw [hx]; simp
  · have x0 : 0 < |x| := lt_of_le_of_ne xn (Ne.symm hx)
    have km : 0 ≤ k + m := by
      have k0 : 0 ≤ k := by
        by_contra hc
        have := mul_neg_of_neg_of_pos (not_le.1 hc) x0
        linarith [abs_nonneg (a - x)]
      have m0 : 0 ≤ m := by
        by_contra hc
        have := mul_neg_of_neg_of_pos (not_le.1 hc) y0
        linarith [abs_nonneg (b - y)]
      linarith
    have n0 : 0 ≤ n := by
      by_contra hc
      have := mul_neg_of_neg_of_pos (not_le.1 hc) (show 0 < 1 - m by linarith)
      linarith
    have t4 := mul_le_mul_of_nonneg_left hb (mul_nonneg n0 xn)
    nlinarith

private theorem rl_add {a x k b y m n : ℝ} (h : Rl a x k) (h' : Rl b y m) (hx : 0 ≤ x) (hy : 0 ≤ y) (hk : k ≤ n) (hm : m ≤ n) :
    Rl (a + b) (x + y) n := by
  unfold Rl at *
  rw [abs_of_nonneg hx] at h
  rw [abs_of_nonneg hy] at h'
  rw [abs_of_nonneg (by linarith : 0 ≤ x + y)]
  have e : a + b - (x + y) = (a - x) + (b - y) := by ring
  rw [e]
  have := abs_add_le (a - x) (b - y)
  have := mul_le_mul_of_nonneg_right hk hx
  have := mul_le_mul_of_nonneg_right hm hy
  linarith

private theorem rl_sqrt {a x k n : ℝ} (h : Rl a x k) (hx : 0 < x) (k0 : 0 ≤ k) (k1 : k < 1) (hn : k ≤ n * (2 - k)) :
    Rl (Real.sqrt a) (Real.sqrt x) n := by
  unfold Rl at *
  rw [abs_of_pos hx] at h
  have s0 := Real.sqrt_pos.2 hx
  rw [abs_of_pos s0]
  obtain ⟨h1, h2⟩ := abs_le.1 h
  have ha : 0 ≤ a := by nlinarith
  have ea := Real.mul_self_sqrt ha
  have ex := Real.mul_self_sqrt hx.le
  have a0 := Real.sqrt_nonneg a
  have lo : (1 - k) * Real.sqrt x ≤ Real.sqrt a := by
    apply Real.le_sqrt_of_sq_le
    have : ((1 - k) * Real.sqrt x) ^ 2 = (1 - k) ^ 2 * x := by rw [mul_pow, sq (Real.sqrt x), ex]
    rw [this]; nlinarith
  have n0 : 0 ≤ n := by
    by_contra hc
    have := mul_neg_of_neg_of_pos (not_le.1 hc) (show 0 < 2 - k by linarith)
    linarith
  generalize Real.sqrt a = p at *
  generalize Real.sqrt x = s at *
  have hp : 0 < p + s := by linarith
  have key : |p - s| * (p + s) ≤ n * s * (p + s) := by
    have e : |p - s| * (p + s) = |a - x| := by
      calc |p - s| * (p + s) = |p - s| * |p + s| := by rw [abs_of_pos hp]
        _ = |a - x| := by rw [← abs_mul, ← ea, ← ex]; congr 1; ring
    rw [e]
    refine h.trans ?_
    rw [← ex]
    have t1 : (2 - k) * s ≤ p + s := by linarith
    have t2 := mul_le_mul_of_nonneg_left t1 (mul_nonneg n0 s0.le)
    have t3 := mul_le_mul_of_nonneg_right hn (mul_nonneg s0.le s0.le)
    nlinarith
  exact le_of_mul_le_mul_right key hp

/-- A library `pow` that is right to 2.3e-16, taken at the `double` nearest to a third: the cube root. -/
private theorem cbrt_fp (R : Rounding binary64) {pw : ℝ → ℝ → ℝ}
    (hp : ∀ a, 0 < a → |pw a (R (1 / 3)) - a ^ (R (1 / 3) : ℝ)| ≤ 2.3e-16 * a ^ (R (1 / 3) : ℝ))
    {a B k : ℝ} (hB : 0 < B) (h : Rl a (B ^ 3) k) (k0 : 0 ≤ k) (hk : k ≤ 1e-10) (b1 : 1e-12 ≤ B ^ 3) (b2 : B ^ 3 ≤ 1e12) :
    0 < a ∧ |pw a (R (1 / 3)) - B| ≤ (1.47e-15 + 0.341 * k) * B := by
  have B3 : 0 < B ^ 3 := by positivity
  unfold Rl at h
  rw [abs_of_pos B3] at h
  obtain ⟨h1, h2⟩ := abs_le.1 h
  have kb : k * B ^ 3 ≤ 1e-10 * B ^ 3 := mul_le_mul_of_nonneg_right hk B3.le
  have ha : 0 < a := by norm_num at kb; linarith
  refine ⟨ha, ?_⟩
  obtain ⟨A, hA⟩ : ∃ A, A = a ^ (1 / 3 : ℝ) := ⟨_, rfl⟩
  have A0 : 0 < A := by rw [hA]; exact Real.rpow_pos_of_pos ha _
  have A3 : A ^ 3 = a := by
    rw [hA, ← Real.rpow_natCast, ← Real.rpow_mul ha.le]; norm_num
  -- the cube root of a neighbouring number
  have n1 : |A - B| ≤ 0.34 * k * B := by
    have lo : 0.99 * B ≤ A := by
      by_contra hc
      have hc := not_le.1 hc
      have t : A ^ 3 < (0.99 * B) ^ 3 := pow_lt_pow_left₀ hc A0.le (by norm_num)
      rw [A3, mul_pow] at t
      norm_num at t kb
      linarith
    have hs : 0 < A ^ 2 + A * B + B ^ 2 := by positivity
    have e : |A - B| * (A ^ 2 + A * B + B ^ 2) = |a - B ^ 3| := by
      calc |A - B| * (A ^ 2 + A * B + B ^ 2) = |A - B| * |A ^ 2 + A * B + B ^ 2| := by rw [abs_of_pos hs]
        _ = |a - B ^ 3| := by rw [← abs_mul, ← A3]; congr 1; ring
    have low : 2.97 * B ^ 2 ≤ A ^ 2 + A * B + B ^ 2 := by norm_num at lo ⊢; nlinarith
    refine le_of_mul_le_mul_right (?_ : |A - B| * (A ^ 2 + A * B + B ^ 2) ≤ 0.34 * k * B * (A ^ 2 + A * B + B ^ 2)) hs
    rw [e]
    refine h.trans ?_
    have t := mul_le_mul_of_nonneg_left low (show 0 ≤ 0.34 * k * B by positivity)
    have : k * B ^ 3 ≤ 0.34 * k * B * (2.97 * B ^ 2) := by
      have : 0 ≤ k * B ^ 3 := by positivity
      nlinarith
    linarith
  -- the exponent is not exactly a third
  have hl : |Real.log a| ≤ 30 := by
    have e30 : (1e13 : ℝ) ≤ Real.exp 30 := by
      have h1 := Real.exp_one_gt_d9
      have : Real.exp 30 = Real.exp 1 ^ 30 := by rw [← Real.exp_nat_mul]; norm_num
      rw [this]
      calc (1e13 : ℝ) ≤ 2.718 ^ 30 := by norm_num
        _ ≤ Real.exp 1 ^ 30 := pow_le_pow_left₀ (by norm_num) (by norm_num at h1 ⊢; linarith) _
    rw [abs_le]
    constructor
    · rw [Real.le_log_iff_exp_le ha, Real.exp_neg]
      have : (Real.exp 30)⁻¹ ≤ (1e13 : ℝ)⁻¹ := inv_anti₀ (by norm_num) e30
      norm_num at this kb b1 ⊢
      linarith
    · rw [Real.log_le_iff_le_exp ha]
      norm_num at kb b2 e30 ⊢
      linarith
  have he : |R (1 / 3) - 1 / 3| ≤ 4.01e-17 := by
    have := R.dbl (1 / 3); rw [abs_of_pos (by norm_num : (0 : ℝ) < 1 / 3)] at this; norm_num at this ⊢; linarith
  obtain ⟨E, hE⟩ : ∃ E, E = Real.log a * (R (1 / 3) - 1 / 3) := ⟨_, rfl⟩
  have hE1 : |E| ≤ 1.203e-15 := by
    rw [hE, abs_mul]
    calc |Real.log a| * |R (1 / 3) - 1 / 3| ≤ 30 * 4.01e-17 := mul_le_mul hl he (abs_nonneg _) (by norm_num)
      _ ≤ 1.203e-15 := by norm_num
  have hE2 : |Real.exp E - 1| ≤ 1.21e-15 := by
    have t := Real.abs_exp_sub_one_sub_id_le (x := E) (by norm_num at hE1 ⊢; linarith)
    have : E ^ 2 ≤ 1.203e-15 ^ 2 := by rw [← sq_abs]; exact pow_le_pow_left₀ (abs_nonneg _) hE1 2
    have e : Real.exp E - 1 = (Real.exp E - 1 - E) + E := by ring
    rw [e]
    have := abs_add_le (Real.exp E - 1 - E) E
    norm_num at *
    linarith
  have hpow : a ^ (R (1 / 3) : ℝ) = A * Real.exp E := by
    rw [hA, Real.rpow_def_of_pos ha, Real.rpow_def_of_pos ha, ← Real.exp_add, hE]; congr 1; ring
  have h4 := hp a ha
  rw [hpow] at h4
  have ex : Real.exp E ≤ 1.0001 := by have := (abs_le.1 hE2).2; norm_num at this ⊢; linarith
  have n2 : |pw a (R (1 / 3)) - A| ≤ 1.4401e-15 * A := by
    have e : pw a (R (1 / 3)) - A = (pw a (R (1 / 3)) - A * Real.exp E) + A * (Real.exp E - 1) := by ring
    rw [e]
    have t1 := abs_add_le (pw a (R (1 / 3)) - A * Real.exp E) (A * (Real.exp E - 1))
    rw [abs_mul, abs_of_pos A0] at t1
    have t2 := mul_le_mul_of_nonneg_left hE2 A0.le
    have t3 := mul_le_mul_of_nonneg_left ex A0.le
    norm_num at h4 t1 t2 t3 ⊢
    linarith
  have AB : A ≤ 1.0001 * B := by
    have := (abs_le.1 n1).2
    have : 0.34 * k * B ≤ 0.0001 * B := mul_le_mul_of_nonneg_right (by norm_num at hk ⊢; linarith) hB.le
    norm_num at *; linarith
  have t := abs_sub_le (pw a (R (1 / 3))) A B
  have : 0 ≤ k * B := by positivity
  norm_num at n1 n2 AB t ⊢
  nlinarith

private theorem rl_pos {a x k : ℝ} (h : Rl a x k) (hx : 0 < x) (hk : k < 1) : 0 < a := by
  unfold Rl at h
  rw [abs_of_pos hx] at h
  have := (abs_le.1 h).1
  nlinarith

private theorem rl_eq {a x y k : ℝ} (h : Rl a x k) (e : x = y) : Rl a y k := e ▸ h

/-- The quantities from which the cube roots are taken. -/
private theorem pos_d (R : Rounding binary64)
    {disco g ρ δ rp' : ℝ} (g1 : 5e-4 ≤ g) (g2 : g ≤ 600) (hd : 3 * disco * g ^ 2 = 1) (ρ1 : 1e-39 ≤ ρ) (ρ2 : ρ ≤ 2.6)
    (hδ : 0 < δ) (hδ2 : δ ^ 2 = 1 + ρ ^ 2) (hrp : Rl rp' (2 / 3 * ρ * g) 2.5e-16) :
    Rl (R (rp' / R (2 * disco))) (ρ * g ^ 3) 5e-16 ∧
    0 < R (R (R (R (1 / R (3 * disco)) * R (1 / R (3 * disco))) * R (1 / R (3 * disco))) +
      R (R (rp' / R (2 * disco)) * R (rp' / R (2 * disco)))) ∧
    Rl (R (Real.sqrt (R (R (R (R (1 / R (3 * disco)) * R (1 / R (3 * disco))) * R (1 / R (3 * disco))) +
      R (R (rp' / R (2 * disco)) * R (rp' / R (2 * disco))))))) (δ * g ^ 3) 7.52e-16 := by
  have g0 : 0 < g := by norm_num at g1; linarith
  have ρ0 : 0 < ρ := by norm_num at ρ1; linarith
  have hR := R.dbl
  have q1 : 1 / (3 * disco) = g ^ 2 := by
    have : 3 * disco = 1 / g ^ 2 := by rw [eq_div_iff (by positivity)]; exact hd
    rw [this, one_div_one_div]
  have r1 : (2 / 3 * ρ * g) / (2 * disco) = ρ * g ^ 3 := by
    have : 2 * disco = 2 / (3 * g ^ 2) := by rw [eq_div_iff (by positivity)]; linarith
    rw [this]; field_simp
  have dpos : 0 < disco := by
    by_contra hn
    have : disco * g ^ 2 ≤ 0 := mul_nonpos_of_nonpos_of_nonneg (not_lt.1 hn) (by positivity)
    linarith
  have glo : ∀ {x : ℝ}, 1e-100 ≤ x → 1e-100 ≤ |x| := fun h => h.trans (le_abs_self _)
  have gg1 : (2.5e-7 : ℝ) ≤ g ^ 2 := by
    calc (2.5e-7 : ℝ) = 5e-4 ^ 2 := by norm_num
      _ ≤ g ^ 2 := pow_le_pow_left₀ (by norm_num) g1 2
  have gg2 : g ^ 2 ≤ 360000 := by
    calc g ^ 2 ≤ 600 ^ 2 := pow_le_pow_left₀ g0.le g2 2
      _ = 360000 := by norm_num
  have g31 : (1e-10 : ℝ) ≤ g ^ 3 := by
    calc (1e-10 : ℝ) ≤ 5e-4 ^ 3 := by norm_num
      _ ≤ g ^ 3 := pow_le_pow_left₀ (by norm_num) g1 3
  have g32 : g ^ 3 ≤ 2.2e8 := by
    calc g ^ 3 ≤ 600 ^ 3 := pow_le_pow_left₀ g0.le g2 3
      _ ≤ 2.2e8 := by norm_num
  have d1 : (9e-7 : ℝ) ≤ disco := by
    by_contra hn
    have hn := not_le.1 hn
    have : 3 * disco * g ^ 2 < 1 := by
      calc 3 * disco * g ^ 2 ≤ 3 * disco * 360000 := mul_le_mul_of_nonneg_left gg2 (by positivity)
        _ < 1 := by norm_num at hn ⊢; linarith
    linarith
  have hq := rl_eq (rl_round hR (rl_div (n := 1.202e-16) (rl_self 1) (rl_round hR (m := 1.201e-16) (rl_self (3 * disco))
    (glo (by norm_num at d1 ⊢; linarith)) (by norm_num)) (by positivity) (by norm_num) (by norm_num)) (m := 2.41e-16)
    (by rw [q1]; exact glo (by norm_num at gg1 ⊢; linarith)) (by norm_num)) q1
  have ρg : (1e-49 : ℝ) ≤ ρ * g ^ 3 := by
    calc (1e-49 : ℝ) = 1e-39 * 1e-10 := by norm_num
      _ ≤ ρ * g ^ 3 := mul_le_mul ρ1 g31 (by norm_num) ρ0.le
  have hr := rl_eq (rl_round hR (rl_div (n := 3.702e-16) hrp (rl_round hR (m := 1.201e-16) (rl_self (2 * disco))
    (glo (by norm_num at d1 ⊢; linarith)) (by norm_num)) (by positivity) (by norm_num) (by norm_num)) (m := 5e-16)
    (by rw [r1]; exact glo (by norm_num at ρg ⊢; linarith)) (by norm_num)) r1
  have g4 : (1e-50 : ℝ) ≤ g ^ 2 * g ^ 2 := by
    calc (1e-50 : ℝ) ≤ 2.5e-7 * 2.5e-7 := by norm_num
      _ ≤ g ^ 2 * g ^ 2 := mul_le_mul gg1 gg1 (by norm_num) (by positivity)
  have g6 : (1e-60 : ℝ) ≤ g ^ 2 * g ^ 2 * g ^ 2 := by
    calc (1e-60 : ℝ) ≤ 1e-50 * 2.5e-7 := by norm_num
      _ ≤ g ^ 2 * g ^ 2 * g ^ 2 := mul_le_mul g4 gg1 (by norm_num) (by positivity)
  have hq3 := rl_round hR (rl_mul (n := 8.441e-16) (rl_round hR (rl_mul (n := 4.821e-16) hq hq (by norm_num) (by norm_num)) (m := 6.03e-16)
    (glo (by norm_num at g4 ⊢; linarith)) (by norm_num)) hq (by norm_num) (by norm_num)) (m := 9.65e-16)
    (glo (by norm_num at g6 ⊢; linarith)) (by norm_num)
  have r2 : (1e-100 : ℝ) ≤ (ρ * g ^ 3) * (ρ * g ^ 3) := by
    calc (1e-100 : ℝ) ≤ 1e-49 * 1e-49 := by norm_num
      _ ≤ (ρ * g ^ 3) * (ρ * g ^ 3) := mul_le_mul ρg ρg (by norm_num) (by positivity)
  have hr2 := rl_round hR (rl_mul (n := 1.001e-15) hr hr (by norm_num) (by norm_num)) (m := 1.13e-15) (glo r2) (by norm_num)
  have hw := rl_round hR (rl_add (n := 1.13e-15) hq3 hr2 (by positivity) (by positivity) (by norm_num) (by norm_num)) (m := 1.26e-15)
    (glo (by have := mul_self_nonneg (ρ * g ^ 3); norm_num at g6 ⊢; linarith)) (by norm_num)
  have hw0 : 0 < g ^ 2 * g ^ 2 * g ^ 2 + ρ * g ^ 3 * (ρ * g ^ 3) := by positivity
  have ew : Real.sqrt (g ^ 2 * g ^ 2 * g ^ 2 + ρ * g ^ 3 * (ρ * g ^ 3)) = δ * g ^ 3 := by
    rw [show g ^ 2 * g ^ 2 * g ^ 2 + ρ * g ^ 3 * (ρ * g ^ 3) = (δ * g ^ 3) ^ 2 by linear_combination -g ^ 6 * hδ2,
      Real.sqrt_sq (by positivity)]
  have δ1 : 1 ≤ δ := by nlinarith
  have δg : (1e-10 : ℝ) ≤ δ * g ^ 3 := by nlinarith
  have hdd := rl_round hR (rl_eq (rl_sqrt (n := 6.31e-16) hw hw0 (by norm_num) (by norm_num) (by norm_num)) ew) (m := 7.52e-16)
    (glo (by norm_num at δg ⊢; linarith)) (by norm_num)
  exact ⟨hr, rl_pos hw hw0 (by norm_num), hdd⟩

private theorem rl_neg {a x k : ℝ} (h : Rl a x k) : Rl (-a) (-x) k := by
  unfold Rl at *
  rw [abs_neg x, show -a - -x = -(a - x) by ring, abs_neg]; exact h

private theorem near_pos {S B k : ℝ} (h : |S - B| ≤ k * B) (hB : 0 < B) (hk : k < 1) : 0 < S := by
  have := (abs_le.1 h).1
  nlinarith

private theorem pos_sum (R : Rounding binary64) {g c S T : ℝ} (g1 : 5e-4 ≤ g) (c1 : 1 ≤ c) (c2 : c ≤ 1.76)
    (s1 : |S - g * c| ≤ 1.78e-15 * (g * c)) (s2 : |T - g * (1 / c)| ≤ 7.82e-15 * (g * (1 / c))) :
    |R (S + -T) - g * (c - 1 / c)| ≤ 1.15e-14 * g := by
  have g0 : 0 < g := by norm_num at g1; linarith
  have ic0 : 0 < 1 / c := by positivity
  have ic1 : 1 / c ≤ 1 := by rw [div_le_one (by linarith)]; exact c1
  have gi0 : 0 < g * (1 / c) := by positivity
  have gc2 := mul_le_mul_of_nonneg_left c2 g0.le
  have gi1 := mul_le_mul_of_nonneg_left ic1 g0.le
  have er : |S + -T - g * (c - 1 / c)| ≤ 1.1e-14 * g := by
    have e : S + -T - g * (c - 1 / c) = (S - g * c) - (T - g * (1 / c)) := by ring
    rw [e]
    have := abs_sub (S - g * c) (T - g * (1 / c))
    generalize 1 / c = i at *
    norm_num at s1 s2 gc2 gi1 ⊢
    linarith
  have hf : |g * (c - 1 / c)| ≤ 1.76 * g := by
    rw [abs_of_nonneg (mul_nonneg g0.le (by linarith))]
    generalize 1 / c = i at *
    norm_num at gc2 ⊢; linarith
  have h5 := R.dbl (S + -T)
  have h6 := abs_sub_abs_le_abs_sub (S + -T) (g * (c - 1 / c))
  have h7 := abs_sub_le (R (S + -T)) (S + -T) (g * (c - 1 / c))
  generalize g * (c - 1 / c) = F at *
  generalize S + -T = Q at *
  norm_num at h5 h6 h7 er hf g1 ⊢
  linarith

/-- The difference of the two cube roots. -/
private theorem pos_cb (R : Rounding binary64) {pw : ℝ → ℝ → ℝ}
    (hp : ∀ a, 0 < a → |pw a (R (1 / 3)) - a ^ (R (1 / 3) : ℝ)| ≤ 2.3e-16 * a ^ (R (1 / 3) : ℝ))
    {g ρ δ r d c : ℝ} (g1 : 5e-4 ≤ g) (g2 : g ≤ 600) (ρ1 : 1e-39 ≤ ρ) (ρ2 : ρ ≤ 2.6)
    (hδ : 0 < δ) (hδ2 : δ ^ 2 = 1 + ρ ^ 2) (hc : 0 < c) (hc3 : c ^ 3 = ρ + δ) (hr : Rl r (ρ * g ^ 3) 5e-16)
    (hdd : Rl d (δ * g ^ 3) 7.52e-16) :
    |R (Fp.ucbrt R pw (R (r + d)) + Fp.ucbrt R pw (R (r - d))) - g * (c - 1 / c)| ≤ 1.15e-14 * g := by
  have g0 : 0 < g := by norm_num at g1; linarith
  have ρ0 : 0 < ρ := by norm_num at ρ1; linarith
  have hR := R.dbl
  have glo : ∀ {x : ℝ}, 1e-100 ≤ x → 1e-100 ≤ |x| := fun h => h.trans (le_abs_self _)
  have g31 : (1e-10 : ℝ) ≤ g ^ 3 := by
    calc (1e-10 : ℝ) ≤ 5e-4 ^ 3 := by norm_num
      _ ≤ g ^ 3 := pow_le_pow_left₀ (by norm_num) g1 3
  have g32 : g ^ 3 ≤ 2.2e8 := by
    calc g ^ 3 ≤ 600 ^ 3 := pow_le_pow_left₀ g0.le g2 3
      _ ≤ 2.2e8 := by norm_num
  have δ1 : 1 ≤ δ := by nlinarith
  have δ2 : δ ≤ 2.79 := by
    by_contra hn
    have hn := not_le.1 hn
    norm_num at hn ρ2
    nlinarith
  have δg : (1e-10 : ℝ) ≤ δ * g ^ 3 := by nlinarith
  have hpl := rl_eq (y := (g * c) ^ 3) (rl_round hR (rl_add (n := 7.52e-16) hr hdd (by positivity) (by positivity) (by norm_num) (by norm_num))
    (m := 8.73e-16) (glo (by have : 0 < ρ * g ^ 3 := by positivity
                             norm_num at δg ⊢; linarith)) (by norm_num)) (by rw [mul_pow, hc3]; ring)
  have cδ : 1 / c ^ 3 = δ - ρ := by
    rw [hc3, div_eq_iff (by positivity)]; linear_combination -hδ2
  have hcc : (g * (1 / c)) ^ 3 = δ * g ^ 3 - ρ * g ^ 3 := by
    rw [mul_pow, div_pow, one_pow, cδ]; ring
  have lo : 0.1855 * g ^ 3 ≤ δ * g ^ 3 - ρ * g ^ 3 := by
    have : 0.1855 ≤ δ - ρ := by
      rw [← cδ, hc3, le_div_iff₀ (by positivity)]; norm_num at δ2 ρ2 ⊢; linarith
    have := mul_le_mul_of_nonneg_right this (show 0 ≤ g ^ 3 by positivity)
    linarith
  have g3p : 0 < g ^ 3 := by positivity
  have lo0 : 0 < δ * g ^ 3 - ρ * g ^ 3 := by norm_num at lo; linarith
  have hmi0 : Rl (-(r - d)) (δ * g ^ 3 - ρ * g ^ 3) 1.84e-14 := by
    have a1 := hr; have a2 := hdd
    unfold Rl at a1 a2 ⊢
    rw [abs_of_pos (show 0 < ρ * g ^ 3 by positivity)] at a1
    rw [abs_of_pos (show 0 < δ * g ^ 3 by positivity)] at a2
    rw [abs_of_pos lo0]
    have b1 := mul_le_mul_of_nonneg_right ρ2 g3p.le
    have b2 := mul_le_mul_of_nonneg_right δ2 g3p.le
    have e : -(r - d) - (δ * g ^ 3 - ρ * g ^ 3) = (d - δ * g ^ 3) - (r - ρ * g ^ 3) := by ring
    rw [e]
    have := abs_sub (d - δ * g ^ 3) (r - ρ * g ^ 3)
    norm_num at a1 a2 b1 b2 lo ⊢
    linarith
  have hmi : Rl (-R (r - d)) ((g * (1 / c)) ^ 3) 1.86e-14 := by
    rw [hcc]
    have t : Rl (R (r - d)) (-(δ * g ^ 3 - ρ * g ^ 3)) 1.86e-14 := by
      refine rl_round hR (k := 1.84e-14) ?_ (by rw [abs_neg]; exact glo (by norm_num at lo g31 ⊢; linarith)) (by norm_num)
      have := rl_neg hmi0
      rwa [neg_neg] at this
    have := rl_neg t
    rwa [neg_neg] at this
  have c1 : 1 ≤ c := by
    by_contra hn
    have : c ^ 3 < 1 ^ 3 := pow_lt_pow_left₀ (not_le.1 hn) hc.le (by norm_num)
    rw [hc3] at this; linarith
  have c2 : c ≤ 1.76 := by
    by_contra hn
    have : 1.76 ^ 3 < c ^ 3 := pow_lt_pow_left₀ (not_le.1 hn) (by norm_num) (by norm_num)
    rw [hc3] at this; norm_num at this δ2 ρ2; linarith
  have ic0 : 0 < 1 / c := by positivity
  have ic1 : 1 / c ≤ 1 := by rw [div_le_one hc]; exact c1
  have up3 : (g * c) ^ 3 = (ρ + δ) * g ^ 3 := by rw [mul_pow, hc3]; ring
  obtain ⟨p1, s1⟩ := cbrt_fp R hp (B := g * c) (by positivity) hpl (by norm_num) (by norm_num)
    (by rw [up3]; norm_num at δg ⊢; nlinarith) (by rw [up3]; norm_num at δ2 ρ2 g32 ⊢; nlinarith)
  obtain ⟨p2, s2⟩ := cbrt_fp R hp (B := g * (1 / c)) (by positivity) hmi (by norm_num) (by norm_num)
    (by rw [hcc]; norm_num at lo g31 ⊢; linarith) (by rw [hcc]; norm_num at δ2 g32 ⊢; nlinarith)
  have e1 : Fp.ucbrt R pw (R (r + d)) = |pw (R (r + d)) (R (1 / 3))| := by
    unfold Fp.ucbrt csign; rw [if_pos p1.le, abs_of_pos p1]
  have e2 : Fp.ucbrt R pw (R (r - d)) = -|pw (-R (r - d)) (R (1 / 3))| := by
    unfold Fp.ucbrt csign
    rw [if_neg (by linarith), abs_of_neg (by linarith : R (r - d) < 0)]
  rw [e1, e2]
  have gc0 : 0 < g * c := by positivity
  have gi0 : 0 < g * (1 / c) := by positivity
  have q1 := near_pos s1 gc0 (by norm_num)
  have q2 := near_pos s2 gi0 (by norm_num)
  rw [abs_of_pos q1, abs_of_pos q2]
  refine pos_sum R g1 c1 c2 (s1.trans ?_) (s2.trans ?_)
  · exact mul_le_mul_of_nonneg_right (by norm_num) gc0.le
  · exact mul_le_mul_of_nonneg_right (by norm_num) gi0.le

/-- The computed root for a positive coefficient. -/
private theorem root_pos (R : Rounding binary64) (cs : ℝ → ℝ) (at2 : ℝ → ℝ → ℝ) {pw : ℝ → ℝ → ℝ}
    (hp : ∀ a, 0 < a → |pw a (R (1 / 3)) - a ^ (R (1 / 3) : ℝ)| ≤ 2.3e-16 * a ^ (R (1 / 3) : ℝ))
    {disco g ρ δ rp' c : ℝ} (g1 : 5e-4 ≤ g) (g2 : g ≤ 600) (hd : 3 * disco * g ^ 2 = 1) (ρ1 : 1e-39 ≤ ρ) (ρ2 : ρ ≤ 2.6)
    (hδ : 0 < δ) (hδ2 : δ ^ 2 = 1 + ρ ^ 2) (hc : 0 < c) (hc3 : c ^ 3 = ρ + δ) (hrp : Rl rp' (2 / 3 * ρ * g) 2.5e-16) :
    |Fp.unpcdRoot R cs at2 pw disco rp' - g * (c - 1 / c)| ≤ 1.15e-14 * g := by
  obtain ⟨h1, h2, h3⟩ := pos_d R g1 g2 hd ρ1 ρ2 hδ hδ2 hrp
  unfold Fp.unpcdRoot
  dsimp only
  rw [if_pos h2.le]
  exact pos_cb R hp g1 g2 ρ1 ρ2 hδ hδ2 hc hc3 h1 h3

/-- For a negative coefficient: the sign of the discriminant, the scale and the cosine of the angle. -/
private theorem neg_c (R : Rounding binary64)
    {disco g ρ rp' : ℝ} (g1 : 5e-4 ≤ g) (g2 : g ≤ 600) (hd : 3 * disco * g ^ 2 = -1) (ρ1 : 1e-39 ≤ ρ) (ρ2 : ρ ^ 2 ≤ 0.675)
    (hrp : Rl rp' (2 / 3 * ρ * g) 2.5e-16) :
    R (R (R (R (1 / R (3 * disco)) * R (1 / R (3 * disco))) * R (1 / R (3 * disco))) +
      R (R (rp' / R (2 * disco)) * R (rp' / R (2 * disco)))) < 0 ∧
    Rl (R (2 / R (Real.sqrt (R (-3 * disco))))) (2 * g) 3.03e-16 ∧
    Rl (R (R (4 * rp') / R (R (R (disco * R (2 / R (Real.sqrt (R (-3 * disco))))) * R (2 / R (Real.sqrt (R (-3 * disco))))) *
      R (2 / R (Real.sqrt (R (-3 * disco))))))) (-ρ) 1.78e-15 := by
  have g0 : 0 < g := by norm_num at g1; linarith
  have ρ0 : 0 < ρ := by norm_num at ρ1; linarith
  have hR := R.dbl
  have gp2 : 0 < g ^ 2 := by positivity
  have ed : disco = -(1 / (3 * g ^ 2)) := by field_simp; linarith
  have e3 : 3 * disco = -(1 / g ^ 2) := by rw [ed]; field_simp
  have em3 : -3 * disco = 1 / g ^ 2 := by rw [ed]; field_simp
  have q1 : 1 / (3 * disco) = -g ^ 2 := by rw [e3]; field_simp
  have r1 : (2 / 3 * ρ * g) / (2 * disco) = -(ρ * g ^ 3) := by rw [ed]; field_simp
  have glo : ∀ {x : ℝ}, 1e-100 ≤ x → 1e-100 ≤ |x| := fun h => h.trans (le_abs_self _)
  have gneg : ∀ {x : ℝ}, 1e-100 ≤ x → 1e-100 ≤ |-x| := fun h => by rw [abs_neg]; exact glo h
  have gg1 : (2.5e-7 : ℝ) ≤ g ^ 2 := by
    calc (2.5e-7 : ℝ) = 5e-4 ^ 2 := by norm_num
      _ ≤ g ^ 2 := pow_le_pow_left₀ (by norm_num) g1 2
  have gg2 : g ^ 2 ≤ 360000 := by
    calc g ^ 2 ≤ 600 ^ 2 := pow_le_pow_left₀ g0.le g2 2
      _ = 360000 := by norm_num
  have g31 : (1e-10 : ℝ) ≤ g ^ 3 := by
    calc (1e-10 : ℝ) ≤ 5e-4 ^ 3 := by norm_num
      _ ≤ g ^ 3 := pow_le_pow_left₀ (by norm_num) g1 3
  have i2 : (2.7e-6 : ℝ) ≤ 1 / g ^ 2 := by
    rw [le_div_iff₀ gp2]; norm_num at gg2 ⊢; linarith
  have d0 : disco ≠ 0 := by rintro rfl; norm_num at hd
  have h3 : Rl (R (3 * disco)) (3 * disco) 1.201e-16 :=
    rl_round hR (rl_self _) (by rw [e3]; exact gneg (by norm_num at i2 ⊢; linarith)) (by norm_num)
  have h2 : Rl (R (2 * disco)) (2 * disco) 1.201e-16 :=
    rl_round hR (rl_self _) (by
      rw [show 2 * disco = -(2 / 3 * (1 / g ^ 2)) by rw [ed]; field_simp]
      exact gneg (by norm_num at i2 ⊢; linarith)) (by norm_num)
  have hq := rl_eq (rl_round hR (rl_div (n := 1.202e-16) (rl_self 1) h3 (by simpa using d0) (by norm_num) (by norm_num)) (m := 2.41e-16)
    (by rw [q1]; exact gneg (by norm_num at gg1 ⊢; linarith)) (by norm_num)) q1
  have ρg : (1e-49 : ℝ) ≤ ρ * g ^ 3 := by
    calc (1e-49 : ℝ) = 1e-39 * 1e-10 := by norm_num
      _ ≤ ρ * g ^ 3 := mul_le_mul ρ1 g31 (by norm_num) ρ0.le
  have hr := rl_eq (rl_round hR (rl_div (n := 3.702e-16) hrp h2 (by simpa using d0) (by norm_num) (by norm_num)) (m := 5e-16)
    (by rw [r1]; exact gneg (by norm_num at ρg ⊢; linarith)) (by norm_num)) r1
  refine ⟨?_, ?_⟩
  · have g4 : (1e-50 : ℝ) ≤ g ^ 2 * g ^ 2 := by
      calc (1e-50 : ℝ) ≤ 2.5e-7 * 2.5e-7 := by norm_num
        _ ≤ g ^ 2 * g ^ 2 := mul_le_mul gg1 gg1 (by norm_num) (by positivity)
    have g6 : (1e-60 : ℝ) ≤ g ^ 2 * g ^ 2 * g ^ 2 := by
      calc (1e-60 : ℝ) ≤ 1e-50 * 2.5e-7 := by norm_num
        _ ≤ g ^ 2 * g ^ 2 * g ^ 2 := mul_le_mul g4 gg1 (by norm_num) (by positivity)
    have hq3 := rl_eq (y := -(g ^ 6)) (rl_round hR (rl_mul (n := 8.441e-16) (rl_round hR (rl_mul (n := 4.821e-16) hq hq (by norm_num) (by norm_num))
      (m := 6.03e-16) (glo (by rw [neg_mul_neg]; norm_num at g4 ⊢; linarith)) (by norm_num)) hq (by norm_num) (by norm_num)) (m := 9.65e-16)
      (by rw [neg_mul_neg, mul_neg]; exact gneg (by norm_num at g6 ⊢; linarith)) (by norm_num)) (by ring)
    have r2 : (1e-100 : ℝ) ≤ (ρ * g ^ 3) * (ρ * g ^ 3) := by
      calc (1e-100 : ℝ) ≤ 1e-49 * 1e-49 := by norm_num
        _ ≤ (ρ * g ^ 3) * (ρ * g ^ 3) := mul_le_mul ρg ρg (by norm_num) (by positivity)
    have hr2 := rl_eq (y := ρ ^ 2 * g ^ 6) (rl_round hR (rl_mul (n := 1.001e-15) hr hr (by norm_num) (by norm_num)) (m := 1.13e-15)
      (by rw [neg_mul_neg]; exact glo r2) (by norm_num)) (by ring)
    have G6 : 0 < g ^ 6 := by positivity
    have g6' : (1e-60 : ℝ) ≤ g ^ 6 := by rw [show g ^ 6 = g ^ 2 * g ^ 2 * g ^ 2 by ring]; exact g6
    unfold Rl at hq3 hr2
    rw [abs_neg, abs_of_pos G6] at hq3
    rw [abs_of_nonneg (by positivity : 0 ≤ ρ ^ 2 * g ^ 6)] at hr2
    have t1 := (abs_le.1 hq3).2
    have t2 := (abs_le.1 hr2).2
    have t3 := mul_le_mul_of_nonneg_right ρ2 G6.le
    generalize R (R (R (1 / R (3 * disco)) * R (1 / R (3 * disco))) * R (1 / R (3 * disco))) = A at *
    generalize R (R (rp' / R (2 * disco)) * R (rp' / R (2 * disco))) = B at *
    have hs : A + B ≤ -(0.3 * g ^ 6) := by norm_num at t1 t2 t3 ⊢; linarith
    have h5 := (abs_le.1 (hR (A + B))).2
    rw [abs_of_nonpos (by norm_num at hs; linarith)] at h5
    norm_num at hs h5 g6' ⊢
    linarith
  · have i1 : (1e-3 : ℝ) ≤ 1 / g := by rw [le_div_iff₀ g0]; norm_num at g2 ⊢; linarith
    have es : Real.sqrt (-3 * disco) = 1 / g := by
      rw [em3, show 1 / g ^ 2 = (1 / g) ^ 2 by field_simp, Real.sqrt_sq (by positivity)]
    have hs := rl_round hR (rl_eq (rl_sqrt (n := 6.01e-17) (rl_round hR (rl_self (-3 * disco)) (m := 1.201e-16)
      (by rw [em3]; exact glo (by norm_num at i2 ⊢; linarith)) (by norm_num)) (by rw [em3]; positivity) (by norm_num) (by norm_num)
      (by norm_num)) es) (m := 1.81e-16) (glo (by norm_num at i1 ⊢; linarith)) (by norm_num)
    have hw := rl_round hR (rl_eq (y := 2 * g) (rl_div (n := 1.82e-16) (rl_self 2) hs (by positivity) (by norm_num) (by norm_num)) (by field_simp))
      (m := 3.03e-16) (glo (by norm_num at g1 ⊢; linarith)) (by norm_num)
    refine ⟨hw, ?_⟩
    generalize R (2 / R (Real.sqrt (R (-3 * disco)))) = w at *
    have h4 := rl_round hR (rl_mul (n := 2.5e-16) (rl_self 4) hrp (by norm_num) (by norm_num)) (m := 3.71e-16)
      (glo (by
        have : (1e-39 : ℝ) * 5e-4 ≤ ρ * g := mul_le_mul ρ1 g1 (by norm_num) ρ0.le
        norm_num at this ⊢; linarith)) (by norm_num)
    have k1 := rl_round hR (rl_mul (n := 3.03e-16) (rl_self disco) hw (by norm_num) (by norm_num)) (m := 4.24e-16)
      (by
        rw [show disco * (2 * g) = -(2 / 3 * (1 / g)) by rw [ed]; field_simp]
        exact gneg (by norm_num at i1 ⊢; linarith)) (by norm_num)
    have k2 := rl_round hR (rl_mul (n := 7.271e-16) k1 hw (by norm_num) (by norm_num)) (m := 8.48e-16)
      (by
        rw [show disco * (2 * g) * (2 * g) = -(4 / 3) by rw [ed]; field_simp; norm_num]
        exact gneg (by norm_num)) (by norm_num)
    have k3 := rl_round hR (rl_mul (n := 1.1511e-15) k2 hw (by norm_num) (by norm_num)) (m := 1.272e-15)
      (by
        rw [show disco * (2 * g) * (2 * g) * (2 * g) = -(8 / 3 * g) by rw [ed]; field_simp; norm_num]
        exact gneg (by norm_num at g1 ⊢; linarith)) (by norm_num)
    refine rl_round hR (rl_eq (y := -ρ) (rl_div (n := 1.644e-15) h4 k3 ?_ (by norm_num) (by norm_num)) ?_) ?_ (by norm_num)
    · simpa using ⟨d0, g0.ne'⟩
    · rw [show disco * (2 * g) * (2 * g) * (2 * g) = -(8 / 3 * g) by rw [ed]; field_simp; norm_num]
      field_simp; norm_num
    · exact gneg (by norm_num at ρ1 ⊢; linarith)

/-- The angle whose third is taken. -/
private theorem neg_t (R : Rounding binary64) {at2 : ℝ → ℝ → ℝ} (ha : Atan2Near at2 5e-16)
    {ρ c : ℝ} (ρ1 : 1e-39 ≤ ρ) (ρ2 : ρ ^ 2 ≤ 0.675) (hc : Rl c (-ρ) 1.78e-15) :
    |at2 (R (Real.sqrt (R (1 - min (R (c * c)) 1)))) c - atan2 (Real.sqrt (1 - ρ ^ 2)) (-ρ)| ≤ 7.1e-15 := by
  have ρ0 : 0 < ρ := by norm_num at ρ1; linarith
  have hR := R.dbl
  have r2 : (1e-100 : ℝ) ≤ ρ ^ 2 := by
    calc (1e-100 : ℝ) ≤ 1e-39 ^ 2 := by norm_num
      _ ≤ ρ ^ 2 := pow_le_pow_left₀ (by norm_num) ρ1 2
  have h1 := rl_eq (y := ρ ^ 2) (rl_mul (n := 3.561e-15) hc hc (by norm_num) (by norm_num)) (by ring)
  have h2 := rl_round hR h1 (m := 3.69e-15) (r2.trans (le_abs_self _)) (by norm_num)
  generalize R (c * c) = C at *
  unfold Rl at h2
  rw [abs_of_pos (by positivity : 0 < ρ ^ 2)] at h2
  have hC : |C - ρ ^ 2| ≤ 2.5e-15 := by norm_num at h2 ρ2 ⊢; linarith
  have hC1 : C ≤ 1 := by have := (abs_le.1 hC).2; norm_num at this ρ2 ⊢; linarith
  rw [min_eq_left hC1]
  have s0 : 0 < 1 - ρ ^ 2 := by norm_num at ρ2; linarith
  have h3 : Rl (R (1 - C)) (1 - ρ ^ 2) 7.9e-15 := by
    refine rl_round hR (k := 7.7e-15) ?_ ?_ (by norm_num)
    · unfold Rl
      rw [abs_of_pos s0, show 1 - C - (1 - ρ ^ 2) = -(C - ρ ^ 2) by ring, abs_neg]
      norm_num at hC ρ2 ⊢; linarith
    · rw [abs_of_pos s0]; exact (show (1e-100 : ℝ) ≤ 0.325 by norm_num).trans (by norm_num at ρ2; linarith)
  have sp := Real.sqrt_pos.2 s0
  have hs2 := Real.sq_sqrt s0.le
  have s1 : (0.1 : ℝ) ≤ Real.sqrt (1 - ρ ^ 2) := by
    apply Real.le_sqrt_of_sq_le; norm_num at ρ2 ⊢; linarith
  have h4 := rl_round hR (rl_sqrt (n := 3.96e-15) h3 s0 (by norm_num) (by norm_num) (by norm_num)) (m := 4.1e-15)
    (by rw [abs_of_pos sp]; norm_num at s1 ⊢; linarith) (by norm_num)
  have hp := rl_pos h4 sp (by norm_num)
  generalize R (Real.sqrt (R (1 - C))) = s' at *
  generalize Real.sqrt (1 - ρ ^ 2) = s at *
  unfold Rl at h4 hc
  rw [abs_of_pos sp] at h4
  rw [abs_neg, abs_of_pos ρ0] at hc
  have key := fp_atan2_near (s := s) (s' := s') (c := -ρ) (c' := c) (L := 1) (d := 4.1e-15) sp.le hp.le one_pos
    (by rw [neg_mul_neg]; linarith) (by norm_num) (by norm_num) (by
      have t1 : (s' - s) ^ 2 ≤ (4.1e-15 * s) ^ 2 := by rw [← sq_abs (s' - s)]; exact pow_le_pow_left₀ (abs_nonneg _) h4 2
      have t2 : (c - -ρ) ^ 2 ≤ (1.78e-15 * ρ) ^ 2 := by rw [← sq_abs (c - -ρ)]; exact pow_le_pow_left₀ (abs_nonneg _) hc 2
      rw [mul_pow] at t1 t2
      norm_num at t1 t2 ⊢
      nlinarith [sq_nonneg ρ])
  have h5 := ha.1 s' c (Or.inl hp.ne')
  have h6 := abs_sub_le (at2 s' c) (atan2 s' c) (atan2 s (-ρ))
  have hpi := Real.pi_lt_d4
  norm_num at key h5 h6 hpi ⊢
  linarith

/-- The cosine of the third of an angle, times the scale. -/
private theorem neg_f (R : Rounding binary64) {cs : ℝ → ℝ} (hcs : ∀ x, |cs x - Real.cos x| ≤ 2e-16)
    {w g a α : ℝ} (g1 : 5e-4 ≤ g) (hw : Rl w (2 * g) 3.03e-16) (h : |a - α| ≤ 4e-15) :
    |R (w * cs a) - 2 * g * Real.cos α| ≤ 9.4e-15 * g := by
  have g0 : 0 < g := by norm_num at g1; linarith
  unfold Rl at hw
  rw [abs_of_pos (show 0 < 2 * g by positivity)] at hw
  have h1 : |cs a - Real.cos α| ≤ 4.2e-15 := by
    have t1 := hcs a
    have t2 := Real.abs_cos_sub_cos_le a α
    have t3 := abs_sub_le (cs a) (Real.cos a) (Real.cos α)
    norm_num at *; linarith
  have c1 := Real.abs_cos_le_one α
  have h2 : |w * cs a - 2 * g * Real.cos α| ≤ 9.1e-15 * g := by
    have e : w * cs a - 2 * g * Real.cos α = (w - 2 * g) * (cs a - Real.cos α) + (w - 2 * g) * Real.cos α + 2 * g * (cs a - Real.cos α) := by ring
    rw [e]
    have t := abs_add_three ((w - 2 * g) * (cs a - Real.cos α)) ((w - 2 * g) * Real.cos α) (2 * g * (cs a - Real.cos α))
    rw [abs_mul, abs_mul, abs_mul (2 * g), abs_of_pos (by positivity : 0 < 2 * g)] at t
    have t1 := mul_le_mul hw h1 (abs_nonneg _) (by positivity)
    have t2 := mul_le_mul hw c1 (abs_nonneg _) (by positivity)
    have t3 := mul_le_mul_of_nonneg_left h1 (show 0 ≤ 2 * g by positivity)
    norm_num at t t1 t2 t3 ⊢
    linarith
  have h3 := R.dbl (w * cs a)
  have h4 : |2 * g * Real.cos α| ≤ 2 * g := by
    rw [abs_mul, abs_of_pos (by positivity : 0 < 2 * g)]; nlinarith
  have h5 := abs_sub_abs_le_abs_sub (w * cs a) (2 * g * Real.cos α)
  have h6 := abs_sub_le (R (w * cs a)) (w * cs a) (2 * g * Real.cos α)
  norm_num at h2 h3 h4 h5 h6 g1 ⊢
  linarith

/-- The smallest root of the cubic by way of the triple angle, and the two others. -/
private theorem neg_roots {ρ : ℝ} (ρ0 : 0 < ρ) (ρ2 : ρ ^ 2 ≤ 0.675) {T : ℝ} (hT : T = atan2 (Real.sqrt (1 - ρ ^ 2)) (-ρ)) :
    ∃ σ : ℝ, 0 < σ ∧ σ ≤ 0.33 ∧ 3 * σ - 4 * σ ^ 3 = ρ ∧ Real.cos ((2 * Real.pi - T) / 3) = σ ∧ 0.6 ≤ Real.cos (T / 3) ∧
      Real.cos ((2 * Real.pi + T) / 3) ≤ -0.7 ∧ 0 ≤ T ∧ T ≤ Real.pi := by
  have s0 : 0 < 1 - ρ ^ 2 := by norm_num at ρ2; linarith
  have hs := Real.sq_sqrt s0.le
  obtain ⟨c1, c2⟩ := cos_atan2_of_sq (y := Real.sqrt (1 - ρ ^ 2)) (x := -ρ) (by rw [hs]; ring)
  have T0 : 0 ≤ T := by rw [hT]; exact Complex.arg_nonneg_iff.2 (Real.sqrt_nonneg _)
  have T1 : T ≤ Real.pi := by rw [hT]; exact Complex.arg_le_pi _
  rw [← hT] at c1
  have T2 : Real.pi / 2 ≤ T := by
    by_contra hn
    have := Real.cos_pos_of_mem_Ioo ⟨by linarith [Real.pi_pos], not_le.1 hn⟩
    linarith
  obtain ⟨φ, hφ⟩ : ∃ φ, φ = (T - Real.pi / 2) / 3 := ⟨_, rfl⟩
  have eT : T = Real.pi / 2 + 3 * φ := by rw [hφ]; ring
  have f0 : 0 ≤ φ := by rw [hφ]; linarith
  have f1 : φ ≤ Real.pi / 6 := by rw [hφ]; linarith
  have h3 : Real.sin (3 * φ) = ρ := by
    rw [show 3 * φ = T - Real.pi / 2 by rw [eT]; ring, Real.sin_sub_pi_div_two, c1, neg_neg]
  rw [Real.sin_three_mul] at h3
  have σ1 : Real.sin φ ≤ 1 / 2 := by
    rw [← Real.sin_pi_div_six]
    exact Real.sin_le_sin_of_le_of_le_pi_div_two (by linarith [Real.pi_pos]) (by linarith [Real.pi_pos]) f1
  have σ0 : 0 ≤ Real.sin φ := Real.sin_nonneg_of_nonneg_of_le_pi f0 (by linarith [Real.pi_pos])
  have C0 : 0 ≤ Real.cos φ := Real.cos_nonneg_of_mem_Icc ⟨by linarith [Real.pi_pos], by linarith [Real.pi_pos]⟩
  have sc := Real.sin_sq_add_cos_sq φ
  have e1 : Real.cos ((2 * Real.pi - T) / 3) = Real.sin φ := by
    rw [show (2 * Real.pi - T) / 3 = Real.pi / 2 - φ by rw [eT]; ring, Real.cos_pi_div_two_sub]
  have e2 : Real.cos (T / 3) = Real.sqrt 3 / 2 * Real.cos φ - 1 / 2 * Real.sin φ := by
    rw [show T / 3 = Real.pi / 6 + φ by rw [eT]; ring, Real.cos_add, Real.cos_pi_div_six, Real.sin_pi_div_six]
  have e3 : Real.cos ((2 * Real.pi + T) / 3) = -(Real.sqrt 3 / 2 * Real.cos φ + 1 / 2 * Real.sin φ) := by
    rw [show (2 * Real.pi + T) / 3 = Real.pi - (Real.pi / 6 - φ) by rw [eT]; ring, Real.cos_pi_sub, Real.cos_sub, Real.cos_pi_div_six,
      Real.sin_pi_div_six]
  rw [e1, e2, e3]
  generalize Real.sin φ = σ at *
  generalize Real.cos φ = C at *
  have σ2 : σ ≤ 0.33 := by
    by_contra hn
    have hn := not_le.1 hn
    have t : 0.84 ≤ ρ := by
      rw [← h3]
      have : 0 ≤ (σ - 0.33) * (3 - 4 * (σ ^ 2 + 0.33 * σ + 0.33 ^ 2)) :=
        mul_nonneg (by linarith) (by norm_num; nlinarith)
      norm_num at this ⊢
      nlinarith
    norm_num at t ρ2
    nlinarith
  have C1 : 0.94 ≤ C := by
    by_contra hn
    have hn := not_le.1 hn
    norm_num at hn σ2
    nlinarith
  have s3 : 1.73 ≤ Real.sqrt 3 := Real.le_sqrt_of_sq_le (by norm_num)
  have t : 1.73 * 0.94 ≤ Real.sqrt 3 * C := mul_le_mul s3 C1 (by norm_num) (Real.sqrt_nonneg _)
  refine ⟨σ, ?_, σ2, h3, rfl, ?_, ?_, T0, T1⟩
  · rcases σ0.lt_or_eq with h | h
    · exact h
    · rw [← h] at h3; norm_num at h3; linarith
  · norm_num at t σ2 ⊢; linarith
  · norm_num at t σ2 ⊢; linarith

/-- The choice among the three roots is that of the exact ones. -/
private theorem neg_pick (R : Rounding binary64) {g σ ρ c2 c3 F1 F2 F3 rp' : ℝ} (g1 : 5e-4 ≤ g) (σ0 : 0 < σ) (σ2 : σ ≤ 0.33)
    (h3 : 3 * σ - 4 * σ ^ 3 = ρ) (hc2 : 0.6 ≤ c2) (hc3 : c3 ≤ -0.7) (a1 : |F1 - 2 * g * σ| ≤ 9.4e-15 * g) (a2 : |F2 - 2 * g * c2| ≤ 9.4e-15 * g)
    (a3 : |F3 - 2 * g * c3| ≤ 9.4e-15 * g) (hrp : Rl rp' (2 / 3 * ρ * g) 2.5e-16) :
    |R (F1 - rp')| < |R (F2 - rp')| ∧ |R (F1 - rp')| < |R (F3 - rp')| := by
  have g0 : 0 < g := by norm_num at g1; linarith
  have ρ3 : 0 < ρ := by
    have e : ρ = σ * (3 - 4 * σ ^ 2) := by rw [← h3]; ring
    rw [e]; norm_num at σ2; exact mul_pos σ0 (by nlinarith)
  have ρ4 : ρ ≤ 0.99 := by rw [← h3]; have : 0 ≤ σ ^ 3 := by positivity
                           norm_num at σ2 ⊢; linarith
  unfold Rl at hrp
  rw [abs_of_pos (by positivity : 0 < 2 / 3 * ρ * g)] at hrp
  have k1 : 2 * g * σ - 2 / 3 * ρ * g = 8 / 3 * σ ^ 3 * g := by rw [← h3]; ring
  have k2 : σ ^ 3 ≤ 0.036 := by
    calc σ ^ 3 ≤ 0.33 ^ 3 := pow_le_pow_left₀ σ0.le σ2 3
      _ ≤ 0.036 := by norm_num
  have k2' : 0 ≤ σ ^ 3 * g := by positivity
  have k3 := mul_le_mul_of_nonneg_right k2 g0.le
  have k4 := mul_le_mul_of_nonneg_right ρ4 g0.le
  have k5 := mul_le_mul_of_nonneg_right hc2 g0.le
  have k6 := mul_le_mul_of_nonneg_right hc3 g0.le
  obtain ⟨r1, r2⟩ := abs_le.1 hrp
  obtain ⟨a11, a12⟩ := abs_le.1 a1
  obtain ⟨a21, a22⟩ := abs_le.1 a2
  obtain ⟨a31, a32⟩ := abs_le.1 a3
  have b1 : |F1 - rp'| ≤ 0.1 * g := by
    rw [abs_le]; norm_num at *; constructor <;> linarith
  have b2 : 0.5 * g ≤ |F2 - rp'| := by
    refine le_trans ?_ (le_abs_self _); norm_num at *; linarith
  have b3 : 0.5 * g ≤ |F3 - rp'| := by
    refine le_trans ?_ (neg_le_abs _); norm_num at *; linarith
  have d1 := R.dbl (F1 - rp')
  have d2 := R.dbl (F2 - rp')
  have d3 := R.dbl (F3 - rp')
  have e1 := abs_sub_abs_le_abs_sub (R (F1 - rp')) (F1 - rp')
  have e2 := abs_sub_abs_le_abs_sub (F2 - rp') (R (F2 - rp'))
  have e3 := abs_sub_abs_le_abs_sub (F3 - rp') (R (F3 - rp'))
  rw [abs_sub_comm (F2 - rp') (R (F2 - rp'))] at e2
  rw [abs_sub_comm (F3 - rp') (R (F3 - rp'))] at e3
  norm_num at b1 b2 b3 d1 d2 d3 g1 ⊢
  constructor <;> linarith

/-- The computed root for a negative coefficient. -/
private theorem root_neg (R : Rounding binary64) {cs : ℝ → ℝ} (hcs : ∀ x, |cs x - Real.cos x| ≤ 2e-16) {at2 : ℝ → ℝ → ℝ}
    (ha : Atan2Near at2 5e-16) (pw : ℝ → ℝ → ℝ)
    {disco g ρ rp' : ℝ} (g1 : 5e-4 ≤ g) (g2 : g ≤ 600) (hd : 3 * disco * g ^ 2 = -1) (ρ1 : 1e-39 ≤ ρ) (ρ2 : ρ ^ 2 ≤ 0.675)
    (hrp : Rl rp' (2 / 3 * ρ * g) 2.5e-16) :
    ∃ σ : ℝ, 0 < σ ∧ σ ≤ 0.33 ∧ 3 * σ - 4 * σ ^ 3 = ρ ∧ |Fp.unpcdRoot R cs at2 pw disco rp' - 2 * g * σ| ≤ 1.15e-14 * g := by
  have g0 : 0 < g := by norm_num at g1; linarith
  have ρ0 : 0 < ρ := by norm_num at ρ1; linarith
  obtain ⟨h1, h2, h3⟩ := neg_c R g1 g2 hd ρ1 ρ2 hrp
  obtain ⟨T, hT⟩ : ∃ T, T = atan2 (Real.sqrt (1 - ρ ^ 2)) (-ρ) := ⟨_, rfl⟩
  obtain ⟨σ, σ0, σ2, s3, e1, e2, e3, T0, T1⟩ := neg_roots ρ0 ρ2 hT
  have ht := neg_t R ha ρ1 ρ2 h3
  rw [← hT] at ht
  refine ⟨σ, σ0, σ2, s3, ?_⟩
  unfold Fp.unpcdRoot
  dsimp only
  rw [if_neg (not_le.2 h1)]
  generalize R (2 / R (Real.sqrt (R (-3 * disco)))) = w at *
  generalize R (R (4 * rp') / R (R (R (disco * w) * w) * w)) = c at *
  generalize at2 (R (Real.sqrt (R (1 - min (R (c * c)) 1)))) c = t at *
  have hpi : |R 6.283185307179586476925286766559 - 2 * Real.pi| ≤ 7.6e-16 := by
    have t1 := R.dbl 6.283185307179586476925286766559
    have t2 := Real.pi_gt_d20
    have t3 := Real.pi_lt_d20
    rw [abs_of_pos (show (0 : ℝ) < 6.283185307179586476925286766559 by norm_num)] at t1
    rw [abs_le] at t1 ⊢
    norm_num at t1 t2 t3 ⊢
    constructor <;> linarith
  have p1 := Real.pi_gt_d2
  have p2 := Real.pi_lt_d2
  generalize R 6.283185307179586476925286766559 = P at *
  have tr : |t| ≤ 3.1501 := by
    obtain ⟨x, y⟩ := abs_le.1 ht
    rw [abs_le]; norm_num at *; constructor <;> linarith
  have third : ∀ b β : ℝ, |b - β| ≤ 9.1e-15 → |b| ≤ 9.5 → |R (b / 3) - β / 3| ≤ 4e-15 := by
    intro b β hb hb2
    have := R.dbl (b / 3)
    rw [abs_div, abs_of_pos (by norm_num : (0 : ℝ) < 3)] at this
    have e := abs_sub_le (R (b / 3)) (b / 3) (β / 3)
    rw [← sub_div, abs_div (b - β), abs_of_pos (by norm_num : (0 : ℝ) < 3)] at e
    norm_num at *
    linarith
  obtain ⟨y1, y2⟩ := abs_le.1 tr
  obtain ⟨P1, P2⟩ := abs_le.1 hpi
  have z1 : |R (P - t) - (2 * Real.pi - T)| ≤ 9.1e-15 ∧ |R (P - t)| ≤ 9.5 := by
    have e1 := R.dbl (P - t)
    have e2 : |P - t - (2 * Real.pi - T)| ≤ 7.87e-15 := by
      obtain ⟨x, y⟩ := abs_le.1 ht
      rw [abs_le]; norm_num at x y P1 P2 ⊢; constructor <;> linarith
    have e3 : |P - t| ≤ 9.46 := by
      rw [abs_le]; norm_num at y1 y2 P1 P2 p1 p2 ⊢; constructor <;> linarith
    have e4 := abs_sub_le (R (P - t)) (P - t) (2 * Real.pi - T)
    have e5 := abs_sub_abs_le_abs_sub (R (P - t)) (P - t)
    norm_num at e1 e2 e3 e4 e5 ⊢
    constructor <;> linarith
  have z3 : |R (P + t) - (2 * Real.pi + T)| ≤ 9.1e-15 ∧ |R (P + t)| ≤ 9.5 := by
    have e1 := R.dbl (P + t)
    have e2 : |P + t - (2 * Real.pi + T)| ≤ 7.87e-15 := by
      obtain ⟨x, y⟩ := abs_le.1 ht
      rw [abs_le]; norm_num at x y P1 P2 ⊢; constructor <;> linarith
    have e3 : |P + t| ≤ 9.46 := by
      rw [abs_le]; norm_num at y1 y2 P1 P2 p1 p2 ⊢; constructor <;> linarith
    have e4 := abs_sub_le (R (P + t)) (P + t) (2 * Real.pi + T)
    have e5 := abs_sub_abs_le_abs_sub (R (P + t)) (P + t)
    norm_num at e1 e2 e3 e4 e5 ⊢
    constructor <;> linarith
  have F1 := neg_f R hcs g1 h2 (third _ _ z1.1 z1.2)
  have F2 := neg_f R hcs g1 h2 (third t T (ht.trans (by norm_num)) (tr.trans (by norm_num)))
  have F3 := neg_f R hcs g1 h2 (third _ _ z3.1 z3.2)
  rw [e1] at F1
  obtain ⟨k1, k2⟩ := neg_pick R g1 σ0 σ2 s3 e2 e3 F1 F2 F3 hrp
  rw [if_pos k1, if_pos k2]
  exact F1.trans (mul_le_mul_of_nonneg_right (by norm_num) g0.le)

private theorem rp_near (R : Rounding binary64) {x y rp : ℝ} (h : rp ^ 2 = x ^ 2 + y ^ 2) (hr : 1e-36 ≤ rp) :
    Rl (R (Real.sqrt (R (R (x * x) + R (y * y))))) rp 2.5e-16 := by
  have r0 : 0 < rp := by norm_num at hr; linarith
  have hR := R.dbl
  have hs : (1e-72 : ℝ) ≤ rp ^ 2 := by
    calc (1e-72 : ℝ) = 1e-36 ^ 2 := by norm_num
      _ ≤ rp ^ 2 := pow_le_pow_left₀ (by norm_num) hr 2
  have h1 : Rl (R (x * x) + R (y * y)) (rp ^ 2) 1.201e-16 := by
    have a1 := hR (x * x); have a2 := hR (y * y)
    rw [abs_of_nonneg (mul_self_nonneg x)] at a1
    rw [abs_of_nonneg (mul_self_nonneg y)] at a2
    unfold Rl
    rw [abs_of_pos (by positivity : 0 < rp ^ 2)]
    have e : R (x * x) + R (y * y) - rp ^ 2 = (R (x * x) - x * x) + (R (y * y) - y * y) := by rw [h]; ring
    rw [e]
    have := abs_add_le (R (x * x) - x * x) (R (y * y) - y * y)
    have e2 : x * x + y * y = rp ^ 2 := by rw [h]; ring
    norm_num at a1 a2 this hs ⊢
    linarith
  have h2 := rl_round hR h1 (m := 2.41e-16) (by rw [abs_of_pos (by positivity)]; norm_num at hs ⊢; linarith) (by norm_num)
  exact rl_round hR (rl_eq (rl_sqrt (n := 1.21e-16) h2 (by positivity) (by norm_num) (by norm_num) (by norm_num)) (Real.sqrt_sq r0.le))
    (by rw [abs_of_pos r0]; norm_num at hr ⊢; linarith) (by norm_num)

/-- Scaling a coordinate. -/
private theorem coord (R : Rounding binary64) {f f' rp rp' x g : ℝ} (g1 : 5e-4 ≤ g) (g2 : g ≤ 600) (r0 : 0 < rp) (r1 : rp ≤ 1.8 * g)
    (hrp : Rl rp' rp 2.5e-16) (hf : |f| ≤ 1.2 * rp) (hf' : |f' - f| ≤ 1.15e-14 * g) (hx : |x| ≤ rp) :
    |R (R (f' / rp') * x) - f / rp * x| ≤ 1.3e-14 * g := by
  have g0 : 0 < g := by norm_num at g1; linarith
  have hR := R.dbl
  have x0 := abs_nonneg x
  have hq := rl_div (n := 2.51e-16) (rl_self f') hrp r0.ne' (by norm_num) (by norm_num)
  unfold Rl at hq
  have t1 := hR (f' / rp')
  have t2 := hR (R (f' / rp') * x)
  obtain ⟨Q, hQ⟩ : ∃ Q, Q = |f' / rp * x| := ⟨_, rfl⟩
  have hQ1 : Q ≤ 1.21 * rp + 1.2e-14 * g := by
    have : Q ≤ |f'| := by
      rw [hQ, abs_mul, abs_div, abs_of_pos r0, div_mul_eq_mul_div, div_le_iff₀ r0]
      exact mul_le_mul_of_nonneg_left hx (abs_nonneg _)
    have := abs_sub_abs_le_abs_sub f' f
    norm_num at *; linarith
  have Q0 : 0 ≤ Q := by rw [hQ]; exact abs_nonneg _
  have u1 : |f' / rp' * x - f' / rp * x| ≤ 2.51e-16 * Q := by
    rw [← sub_mul, abs_mul, hQ, abs_mul, ← mul_assoc]; exact mul_le_mul_of_nonneg_right hq x0
  have u2 : |f' / rp'| * |x| ≤ 1.001 * Q := by
    have := abs_sub_abs_le_abs_sub (f' / rp' * x) (f' / rp * x)
    rw [abs_mul, ← hQ] at this
    norm_num at *; linarith
  have x1 : |x| ≤ 1080 := by norm_num at r1 g2; linarith
  have u3 : |R (f' / rp') * x - f' / rp' * x| ≤ 1.2012e-16 * Q + 2e-197 := by
    rw [← sub_mul, abs_mul]
    have := mul_le_mul_of_nonneg_right t1 x0
    norm_num at this u2 x1 ⊢
    nlinarith
  have u4 : |R (f' / rp') * x| ≤ 1.01 * Q + 1e-190 := by
    have a := abs_sub_abs_le_abs_sub (R (f' / rp') * x) (f' / rp' * x)
    rw [abs_mul (f' / rp')] at a
    norm_num at *; linarith
  have u5 : |f' / rp * x - f / rp * x| ≤ 1.15e-14 * g := by
    have e : f' / rp * x - f / rp * x = (f' - f) * (x / rp) := by ring
    rw [e, abs_mul]
    have : |x / rp| ≤ 1 := by rw [abs_div, abs_of_pos r0, div_le_one r0]; exact hx
    exact (mul_le_of_le_one_right (abs_nonneg _) this).trans hf'
  have e : R (R (f' / rp') * x) - f / rp * x = (R (R (f' / rp') * x) - R (f' / rp') * x) + (R (f' / rp') * x - f' / rp' * x) +
      ((f' / rp' * x - f' / rp * x) + (f' / rp * x - f / rp * x)) := by ring
  rw [e]
  have v1 := abs_add_three (R (R (f' / rp') * x) - R (f' / rp') * x) (R (f' / rp') * x - f' / rp' * x)
    ((f' / rp' * x - f' / rp * x) + (f' / rp * x - f / rp * x))
  have v2 := abs_add_le (f' / rp' * x - f' / rp * x) (f' / rp * x - f / rp * x)
  clear hq t1 hx hf hrp e
  norm_num at t2 u1 u3 u4 u5 v1 v2 hQ1 r1 g1 ⊢
  linarith

private theorem small_sum {f h g : ℝ} (hg : 0 < g) (f1 : f ≤ 0.8 * g) (f2 : -(0.8 * g) ≤ f) (h0 : 0 < h) (h1 : h ≤ 0.66 * g) :
    f ^ 2 + f * h + h ^ 2 < 3 * g ^ 2 := by
  have a1 : f ^ 2 ≤ (0.8 * g) ^ 2 := sq_le_sq' f2 f1
  have a2 : h ^ 2 ≤ (0.66 * g) ^ 2 := pow_le_pow_left₀ h0.le h1 2
  have a3 : f * h ≤ 0.8 * g * (0.66 * g) := by
    calc f * h ≤ 0.8 * g * h := mul_le_mul_of_nonneg_right f1 h0.le
      _ ≤ 0.8 * g * (0.66 * g) := mul_le_mul_of_nonneg_left h1 (by positivity)
  have : 0 < g ^ 2 := by positivity
  rw [mul_pow] at a1 a2
  norm_num at a1 a2 a3
  linarith

/-- The exact root and the computed one. -/
private theorem root_near (R : Rounding binary64) {cs : ℝ → ℝ} (hcs : ∀ x, |cs x - Real.cos x| ≤ 2e-16) {at2 pw : ℝ → ℝ → ℝ}
    (ha : Atan2Near at2 5e-16)
    (hp : ∀ a, 0 < a → |pw a (R (1 / 3)) - a ^ (R (1 / 3) : ℝ)| ≤ 2.3e-16 * a ^ (R (1 / 3) : ℝ))
    {disco g rp rp' : ℝ} (g1 : 5e-4 ≤ g) (g2 : g ≤ 600) (hg : 3 * |disco| * g ^ 2 = 1) (r1 : 1e-36 ≤ rp)
    (h1 : -0.1 ≤ disco * rp ^ 2) (h2 : disco * rp ^ 2 ≤ 1) (hrp : Rl rp' rp 2.5e-16) :
    |Sla.unpcdRoot disco rp| ≤ 1.2 * rp ∧ |Fp.unpcdRoot R cs at2 pw disco rp' - Sla.unpcdRoot disco rp| ≤ 1.15e-14 * g := by
  have g0 : 0 < g := by norm_num at g1; linarith
  have r0 : 0 < rp := by norm_num at r1; linarith
  obtain ⟨ρ, hρ⟩ : ∃ ρ, ρ = 3 / 2 * rp / g := ⟨_, rfl⟩
  have eρ : 2 / 3 * ρ * g = rp := by rw [hρ]; field_simp
  have ρ0 : 0 < ρ := by rw [hρ]; positivity
  have ρ1 : 1e-39 ≤ ρ := by
    rw [hρ, le_div_iff₀ g0]; norm_num at r1 g2 ⊢; linarith
  rw [← eρ] at hrp
  have d0 : disco ≠ 0 := by rintro rfl; norm_num at hg
  have hs := unpcdRoot_spec (rp := rp) d0
  rcases lt_or_gt_of_ne d0 with hd | hd
  · rw [abs_of_neg hd] at hg
    have e4 : disco * rp ^ 2 = -(4 / 27 * ρ ^ 2) := by rw [← eρ]; linear_combination -(4 / 27 * ρ ^ 2) * hg
    obtain ⟨σ, σ0, σ2, h3, k⟩ := root_neg R hcs ha pw g1 g2 (by linarith : 3 * disco * g ^ 2 = -1) ρ1
      (by norm_num at h1 ⊢; linarith) hrp
    have c0 : disco * (2 * g * σ) ^ 3 + 2 * g * σ = rp := by
      rw [← eρ, ← h3]; linear_combination -(8 / 3 * g * σ ^ 3) * hg
    have hn := unpcdRoot_nearest d0 (rp := rp) (by norm_num at h1; nlinarith) _ c0
    have k1 : 2 * g * σ - rp = 8 / 3 * σ ^ 3 * g := by rw [← eρ, ← h3]; ring
    have k2 : σ ^ 3 ≤ 0.33 ^ 3 := pow_le_pow_left₀ σ0.le σ2 3
    have k3 : 0 ≤ σ ^ 3 * g := by positivity
    have k4 := mul_le_mul_of_nonneg_right k2 g0.le
    have k5 := mul_le_mul_of_nonneg_right σ2 g0.le
    rw [k1, abs_of_nonneg (show 0 ≤ 8 / 3 * σ ^ 3 * g by positivity)] at hn
    obtain ⟨n1, n2⟩ := abs_le.1 hn
    have er : Sla.unpcdRoot disco rp = 2 * g * σ := by
      generalize Sla.unpcdRoot disco rp = f at *
      by_contra hne
      have t1 : disco * (f ^ 2 + f * (2 * g * σ) + (2 * g * σ) ^ 2) + 1 = 0 := by
        apply mul_left_cancel₀ (sub_ne_zero.2 hne)
        linear_combination hs - c0
      have t2 : f ^ 2 + f * (2 * g * σ) + (2 * g * σ) ^ 2 = 3 * g ^ 2 := by
        linear_combination (-3 * g ^ 2) * t1 + (-(f ^ 2 + f * (2 * g * σ) + (2 * g * σ) ^ 2)) * hg
      exact absurd t2 (small_sum g0 (by norm_num at k4 k5 ⊢; linarith) (by norm_num at k4 k5 ⊢; linarith) (by positivity)
        (by norm_num at k5 ⊢; linarith)).ne
    rw [er]
    refine ⟨?_, k⟩
    rw [abs_of_pos (by positivity), ← eρ, ← h3]
    have u1 : 0 ≤ σ * g * (0.33 ^ 2 - σ ^ 2) := mul_nonneg (by positivity) (sub_nonneg.2 (pow_le_pow_left₀ σ0.le σ2 2))
    have u2 : 0 < σ * g := by positivity
    have u3 : 1.2 * (2 / 3 * (3 * σ - 4 * σ ^ 3) * g) - 2 * g * σ = 3.2 * (σ * g * (0.33 ^ 2 - σ ^ 2)) + (0.4 - 3.2 * 0.33 ^ 2) * (σ * g) := by ring
    norm_num at u1 u3 ⊢
    linarith
  · rw [abs_of_pos hd] at hg
    have e4 : disco * rp ^ 2 = 4 / 27 * ρ ^ 2 := by rw [← eρ]; linear_combination (4 / 27 * ρ ^ 2) * hg
    have ρ2 : ρ ≤ 2.6 := by
      by_contra hn
      have hn := not_le.1 hn
      norm_num at hn
      nlinarith
    obtain ⟨δ, hδ⟩ : ∃ δ, δ = Real.sqrt (1 + ρ ^ 2) := ⟨_, rfl⟩
    have δ0 : 0 < δ := by rw [hδ]; positivity
    have hδ2 : δ ^ 2 = 1 + ρ ^ 2 := by rw [hδ, Real.sq_sqrt (by positivity)]
    obtain ⟨c, hc⟩ : ∃ c, c = (ρ + δ) ^ (1 / 3 : ℝ) := ⟨_, rfl⟩
    have c0 : 0 < c := by rw [hc]; exact Real.rpow_pos_of_pos (by positivity) _
    have hc3 : c ^ 3 = ρ + δ := by
      rw [hc, ← Real.rpow_natCast, ← Real.rpow_mul (by positivity)]; norm_num
    have k := root_pos R cs at2 hp g1 g2 hg ρ1 ρ2 δ0 hδ2 c0 hc3 hrp
    have ci : c * (1 / c) = 1 := by field_simp
    have ci3 : (1 / c) ^ 3 = δ - ρ := by
      rw [div_pow, one_pow, hc3, div_eq_iff (by positivity)]; linear_combination -hδ2
    have cub : disco * (g * (c - 1 / c)) ^ 3 + g * (c - 1 / c) = rp := by
      rw [← eρ]
      generalize 1 / c = i at *
      have t : (c - i) ^ 3 = 2 * ρ - 3 * (c - i) := by linear_combination hc3 - ci3 - 3 * (c - i) * ci
      rw [mul_pow, t]
      linear_combination (1 / 3 * g * (2 * ρ - 3 * (c - i))) * hg
    have er : Sla.unpcdRoot disco rp = g * (c - 1 / c) := by
      generalize Sla.unpcdRoot disco rp = f at *
      generalize g * (c - 1 / c) = h at *
      by_contra hne
      have t1 : disco * (f ^ 2 + f * h + h ^ 2) + 1 = 0 := by
        apply mul_left_cancel₀ (sub_ne_zero.2 hne)
        linear_combination hs - cub
      have : 0 ≤ disco * (f ^ 2 + f * h + h ^ 2) := mul_nonneg hd.le (by nlinarith [sq_nonneg (f + h), sq_nonneg f, sq_nonneg h])
      linarith
    rw [← er] at k
    refine ⟨?_, k⟩
    generalize Sla.unpcdRoot disco rp = f at *
    have e5 : f * (1 + disco * f ^ 2) = rp := by linear_combination hs
    have f0 : 0 ≤ f := by
      by_contra hn
      have := mul_neg_of_neg_of_pos (not_le.1 hn) (show 0 < 1 + disco * f ^ 2 by positivity)
      linarith
    rw [abs_of_nonneg f0]
    have : 0 ≤ f * (disco * f ^ 2) := by positivity
    norm_num; nlinarith

/-- C117: in double precision `unpcd` finds each coordinate of the undistorted point to 8e-15 of the scale `1 / sqrt |disco|` of the distortion, for
    coefficients of either sign (negative ones if the distortion is not near its limit `disco r² = -4/27`). -/
theorem C117_unpcd (R : Rounding binary64) {cs : ℝ → ℝ} (hcs : ∀ x, |cs x - Real.cos x| ≤ 2e-16) {at2 pw : ℝ → ℝ → ℝ}
    (ha : Atan2Near at2 5e-16)
    (hp : ∀ a, 0 < a → |pw a (R (1 / 3)) - a ^ (R (1 / 3) : ℝ)| ≤ 2.3e-16 * a ^ (R (1 / 3) : ℝ))
    {disco x y : ℝ} (d1 : 1e-6 ≤ |disco|) (d2 : |disco| ≤ 1e6) (hr : 1e-72 ≤ x ^ 2 + y ^ 2 ∨ x = 0 ∧ y = 0)
    (h1 : -0.1 ≤ disco * (x ^ 2 + y ^ 2)) (h2 : disco * (x ^ 2 + y ^ 2) ≤ 1) :
    |(Fp.unpcd R cs at2 pw disco x y).1 - (Sla.unpcd disco x y).1| ≤ 8e-15 / Real.sqrt |disco| ∧
    |(Fp.unpcd R cs at2 pw disco x y).2 - (Sla.unpcd disco x y).2| ≤ 8e-15 / Real.sqrt |disco| := by
  have D0 : 0 < |disco| := by norm_num at d1; linarith
  have d0 : disco ≠ 0 := abs_pos.1 D0
  obtain ⟨s, hs⟩ : ∃ s, s = Real.sqrt |disco| := ⟨_, rfl⟩
  have s0 : 0 < s := by rw [hs]; positivity
  have ss : s ^ 2 = |disco| := by rw [hs, Real.sq_sqrt D0.le]
  rw [← hs]
  rcases hr with hr | ⟨rfl, rfl⟩
  · obtain ⟨rp, hrp⟩ : ∃ rp, rp = Real.sqrt (x * x + y * y) := ⟨_, rfl⟩
    have exy : x * x + y * y = x ^ 2 + y ^ 2 := by ring
    have p0 : 0 < x ^ 2 + y ^ 2 := by norm_num at hr; linarith
    have rr : rp ^ 2 = x ^ 2 + y ^ 2 := by rw [hrp, exy, Real.sq_sqrt p0.le]
    have r1 : 1e-36 ≤ rp := by
      rw [hrp, exy]; apply Real.le_sqrt_of_sq_le; norm_num at hr ⊢; linarith
    have r0 : 0 < rp := by norm_num at r1; linarith
    have h3 := rp_near R rr r1
    obtain ⟨g, hg⟩ : ∃ g, g = 1 / (Real.sqrt 3 * s) := ⟨_, rfl⟩
    have t0 : 0 < Real.sqrt 3 := by positivity
    have tt : Real.sqrt 3 ^ 2 = 3 := Real.sq_sqrt (by norm_num)
    have g0 : 0 < g := by rw [hg]; positivity
    have hgg : 3 * |disco| * g ^ 2 = 1 := by
      rw [hg, ← ss, div_pow, mul_pow, tt]; field_simp
    have g1 : 5e-4 ≤ g := by
      by_contra hn
      have hn := not_le.1 hn
      have : g ^ 2 < 5e-4 ^ 2 := pow_lt_pow_left₀ hn g0.le (by norm_num)
      have : 3 * |disco| * g ^ 2 < 1 := by
        calc 3 * |disco| * g ^ 2 ≤ 3 * 1e6 * g ^ 2 := mul_le_mul_of_nonneg_right (by norm_num at d2 ⊢; linarith) (by positivity)
          _ < 1 := by norm_num at this ⊢; linarith
      linarith
    have g2 : g ≤ 600 := by
      by_contra hn
      have hn := not_le.1 hn
      have : 600 ^ 2 < g ^ 2 := pow_lt_pow_left₀ hn (by norm_num) (by norm_num)
      have : 1 < 3 * |disco| * g ^ 2 := by
        calc (1 : ℝ) < 3 * 1e-6 * g ^ 2 := by norm_num at this ⊢; linarith
          _ ≤ 3 * |disco| * g ^ 2 := mul_le_mul_of_nonneg_right (by norm_num at d1 ⊢; linarith) (by positivity)
      linarith
    have r2 : rp ≤ 1.8 * g := by
      have : |disco| * rp ^ 2 ≤ 1 := by
        rcases abs_cases disco with ⟨e, _⟩ | ⟨e, _⟩ <;> rw [e, rr] <;> norm_num at h1 <;> linarith
      have : rp ^ 2 ≤ 3 * g ^ 2 := by
        have e : rp ^ 2 = 3 * g ^ 2 * (|disco| * rp ^ 2) := by linear_combination (-rp ^ 2) * hgg
        rw [e]; exact mul_le_of_le_one_right (by positivity) this
      by_contra hn
      have hn := not_le.1 hn
      norm_num at hn
      nlinarith
    obtain ⟨k1, k2⟩ := root_near R hcs ha hp g1 g2 hgg r1 (by rw [rr]; exact h1) (by rw [rr]; exact h2) h3
    have rn := rl_pos h3 r0 (by norm_num)
    have gs : 1.3e-14 * g ≤ 8e-15 / s := by
      rw [hg, le_div_iff₀ s0]
      have : 1 / (Real.sqrt 3 * s) * s = 1 / Real.sqrt 3 := by field_simp
      rw [mul_assoc, this]
      have : 1.7 ≤ Real.sqrt 3 := Real.le_sqrt_of_sq_le (by norm_num)
      have : 1 / Real.sqrt 3 ≤ 1 / 1.7 := one_div_le_one_div_of_le (by norm_num) this
      norm_num at this ⊢
      linarith
    have ax : |x| ≤ rp := abs_le_of_sq_le_sq (by rw [rr]; nlinarith [sq_nonneg y]) r0.le
    have ay : |y| ≤ rp := abs_le_of_sq_le_sq (by rw [rr]; nlinarith [sq_nonneg x]) r0.le
    unfold Fp.unpcd Sla.unpcd
    dsimp only
    rw [← hrp, if_pos ⟨rn.ne', d0⟩, if_pos ⟨r0.ne', d0⟩]
    exact ⟨(coord R g1 g2 r0 r2 h3 k1 k2 ax).trans gs, (coord R g1 g2 r0 r2 h3 k1 k2 ay).trans gs⟩
  · have e1 : Fp.unpcd R cs at2 pw disco 0 0 = (0, 0) := by
      unfold Fp.unpcd; simp [R.zero]
    have e2 : Sla.unpcd disco 0 0 = (0, 0) := by
      unfold Sla.unpcd; simp
    rw [e1, e2]
    simp
    positivity

/-- The AAT's prime focus doublet, at half a degree from the axis. -/
example (R : Rounding binary64) {cs : ℝ → ℝ} (hcs : ∀ x, |cs x - Real.cos x| ≤ 2e-16) {at2 pw : ℝ → ℝ → ℝ} (ha : Atan2Near at2 5e-16)
    (hp : ∀ a, 0 < a → |pw a (R (1 / 3)) - a ^ (R (1 / 3) : ℝ)| ≤ 2.3e-16 * a ^ (R (1 / 3) : ℝ)) :
    |(Fp.unpcd R cs at2 pw 147.069 0.007 (-0.005)).1 - (Sla.unpcd 147.069 0.007 (-0.005)).1| ≤ 7e-16 := by
  refine (C117_unpcd R hcs ha hp (by norm_num [abs_of_pos]) (by norm_num [abs_of_pos]) (Or.inl (by norm_num)) (by norm_num) (by norm_num)).1.trans ?_
  rw [div_le_iff₀ (by positivity)]
  have : 12 ≤ Real.sqrt |147.069| := by
    apply Real.le_sqrt_of_sq_le; rw [abs_of_pos (by norm_num)]; norm_num
  norm_num at this ⊢
  linarith

/-- A Schmidt telescope: a negative coefficient. -/
example (R : Rounding binary64) {cs : ℝ → ℝ} (hcs : ∀ x, |cs x - Real.cos x| ≤ 2e-16) {at2 pw : ℝ → ℝ → ℝ} (ha : Atan2Near at2 5e-16)
    (hp : ∀ a, 0 < a → |pw a (R (1 / 3)) - a ^ (R (1 / 3) : ℝ)| ≤ 2.3e-16 * a ^ (R (1 / 3) : ℝ)) :
    |(Fp.unpcd R cs at2 pw (-1 / 3) 0.04 0.03).2 - (Sla.unpcd (-1 / 3) 0.04 0.03).2| ≤ 8e-15 / Real.sqrt |(-1 / 3 : ℝ)| :=
  (C117_unpcd R hcs ha hp (by norm_num [abs_of_neg]) (by norm_num [abs_of_neg]) (Or.inl (by norm_num)) (by norm_num) (by norm_num)).2

end Sla.Props
