import Verif.Lemmas.PrecRates

/-
The angular velocity of a frame precessed with polynomial Euler angles.
-/
namespace Sla
open Matrix Spec

theorem as2r_bounds : 4.84813e-6 ≤ as2r ∧ as2r ≤ 4.84814e-6 ∧ |as2r ^ 2 - 2.350443e-11| ≤ 3e-17 := by
  have h1 := Real.pi_gt_d6
  have h2 := Real.pi_lt_d6
  unfold as2r
  refine ⟨by rw [le_div_iff₀ (by norm_num)]; linarith, by rw [div_le_iff₀ (by norm_num)]; linarith, ?_⟩
  have e : (Real.pi / 648000) ^ 2 = Real.pi ^ 2 / 419904000000 := by ring
  have l : (3.141592 : ℝ) ^ 2 ≤ Real.pi ^ 2 := by gcongr
  have u : Real.pi ^ 2 ≤ (3.141593 : ℝ) ^ 2 := by gcongr
  rw [e, abs_le]
  constructor
  · have : (2.350443e-11 - 3e-17 : ℝ) ≤ Real.pi ^ 2 / 419904000000 := by
      rw [le_div_iff₀ (by norm_num)]; refine le_trans ?_ l; norm_num
    linarith
  · have : Real.pi ^ 2 / 419904000000 ≤ (2.350443e-11 + 3e-17 : ℝ) := by
      rw [div_le_iff₀ (by norm_num)]; refine u.trans ?_; norm_num
    linarith

private theorem mul_bound {x y X Y : ℝ} (hx : |x| ≤ X) (hy : |y| ≤ Y) : |x * y| ≤ X * Y := by
  rw [abs_mul]; exact mul_le_mul hx hy (abs_nonneg _) ((abs_nonneg _).trans hx)

private theorem pow_bound {x X : ℝ} (hx : |x| ≤ X) (n : ℕ) : |x ^ n| ≤ X ^ n := by
  rw [abs_pow]; exact pow_le_pow_left₀ (abs_nonneg _) hx n

private theorem sum_bound {u1 u2 u3 u4 a b c d n : ℝ} (h1 : |u1| ≤ a) (h2 : |u2| ≤ b) (h3 : |u3| ≤ c) (h4 : |u4| ≤ d)
    (hn : 0 < n) : |u1 - u2 - u3 - u4 / n| ≤ a + b + c + d / n := by
  have h5 : |u4 / n| ≤ d / n := by rw [abs_div, abs_of_pos hn]; gcongr
  rw [abs_le] at *
  constructor <;> linarith

private theorem sin_near {x X : ℝ} (h : |x| ≤ X) (hX : X ≤ 1) :
    |Real.sin x - (x - x ^ 3 / 6)| ≤ X ^ 4 * (5 / 96) ∧ |Real.cos x - (1 - x ^ 2 / 2)| ≤ X ^ 4 * (5 / 96) := by
  have h4 : |x| ^ 4 ≤ X ^ 4 := pow_le_pow_left₀ (abs_nonneg _) h 4
  have h5 : |x| ^ 5 / 100 ≤ X ^ 4 * (5 / 96) := by
    have : |x| ^ 5 ≤ X ^ 4 * 1 := by
      rw [pow_succ]; exact mul_le_mul h4 (h.trans hX) (abs_nonneg _) ((pow_nonneg (abs_nonneg _) 4).trans h4)
    have := (pow_nonneg (abs_nonneg x) 4).trans h4
    linarith
  exact ⟨(Real.sin_bound (h.trans hX)).trans h5,
    (Real.cos_bound (h.trans hX)).trans (mul_le_mul_of_nonneg_right h4 (by norm_num : (0 : ℝ) ≤ 5 / 96))⟩

/-- Third order expansion of the angular velocity; `Z`, `Θ` in arcseconds, rates in arcseconds per century. -/
theorem rate_near {Z Θ dζ dθ dz V W X Y Q : ℝ} (hZ : |Z| ≤ 4700) (hΘ : |Θ| ≤ 4100) (h1 : |dζ| ≤ 2320) (h2 : |dθ| ≤ 2020)
    (hx : |dθ * Z - dζ * Θ + as2r ^ 2 * (-(dθ * Z ^ 3) / 6 + dζ * Θ ^ 3 / 6 + dζ * Θ * Z ^ 2 / 2)| ≤ X)
    (hy : |dθ - V + as2r ^ 2 * (dζ * Θ * Z - dθ * Z ^ 2 / 2) - (as2r ^ 2) ^ 2 * (dζ * Θ * Z * (Z ^ 2 + Θ ^ 2)) / 6| ≤ Y)
    (hz : |dz + dζ - 2 * W - as2r ^ 2 * (dζ * Θ ^ 2) / 2| ≤ Q) :
    let ω := eulRate (Θ * as2r) (Z * as2r) (dζ * as2r) (dθ * as2r) (dz * as2r)
    |ω 0| ≤ as2r * (as2r * X + 0.00005) ∧ |ω 1 + as2r * V| ≤ as2r * (Y + 0.00003) ∧
      |ω 2 - 2 * as2r * W| ≤ as2r * (Q + 0.00002) := by
  obtain ⟨kl, ku, -⟩ := as2r_bounds
  have k0 : 0 ≤ as2r := by linarith
  have kabs : |as2r| ≤ 4.84814e-6 := by rw [abs_of_nonneg k0]; exact ku
  have ha : |Z * as2r| ≤ 0.0228 := (mul_bound hZ kabs).trans (by norm_num)
  have hb : |Θ * as2r| ≤ 0.0199 := (mul_bound hΘ kabs).trans (by norm_num)
  obtain ⟨sa, ca⟩ := sin_near ha (by norm_num)
  obtain ⟨sb, cb⟩ := sin_near hb (by norm_num)
  simp only [eulRate, Matrix.cons_val_zero, Matrix.cons_val_one, Matrix.cons_val]
  set a := Z * as2r with haD
  set b := Θ * as2r with hbD
  set k := as2r
  obtain ⟨ea, hea⟩ : ∃ e, Real.sin a = a - a ^ 3 / 6 + e := ⟨_, (add_sub_cancel _ _).symm⟩
  obtain ⟨fa, hfa⟩ : ∃ e, Real.cos a = 1 - a ^ 2 / 2 + e := ⟨_, (add_sub_cancel _ _).symm⟩
  obtain ⟨eb, heb⟩ : ∃ e, Real.sin b = b - b ^ 3 / 6 + e := ⟨_, (add_sub_cancel _ _).symm⟩
  obtain ⟨fb, hfb⟩ : ∃ e, Real.cos b = 1 - b ^ 2 / 2 + e := ⟨_, (add_sub_cancel _ _).symm⟩
  have sinA := Real.abs_sin_le_one a
  have cosA := Real.abs_cos_le_one a
  rw [hea, add_sub_cancel_left] at sa
  rw [hfa, add_sub_cancel_left] at ca
  rw [heb, add_sub_cancel_left] at sb
  rw [hfb, add_sub_cancel_left] at cb
  have sa' : |ea| ≤ 1.41e-8 := sa.trans (by norm_num)
  have ca' : |fa| ≤ 1.41e-8 := ca.trans (by norm_num)
  have sb' : |eb| ≤ 8.2e-9 := sb.trans (by norm_num)
  have cb' : |fb| ≤ 8.2e-9 := cb.trans (by norm_num)
  have hsa : |Real.sin a| ≤ 0.0228 := by
    refine (Real.abs_sin_le_abs).trans ha
  have hsb : |b - b ^ 3 / 6| ≤ 0.02 := by
    have := pow_bound hb 3
    rw [abs_le] at *
    constructor <;> nlinarith
  clear sa ca sb cb
  refine ⟨?_, ?_, ?_⟩
  · have e : dθ * k * Real.sin a - dζ * k * Real.sin b * Real.cos a =
        k * (k * (dθ * Z - dζ * Θ + k ^ 2 * (-(dθ * Z ^ 3) / 6 + dζ * Θ ^ 3 / 6 + dζ * Θ * Z ^ 2 / 2)) +
          (dθ * ea - dζ * (eb * Real.cos a) - dζ * ((b - b ^ 3 / 6) * fa) - dζ * (b ^ 3 * a ^ 2) / 12)) := by
      rw [heb, hea, hfa, haD, hbD]; ring
    rw [e, abs_mul, abs_of_nonneg k0]
    refine mul_le_mul_of_nonneg_left ?_ k0
    refine (abs_add_le _ _).trans (add_le_add ?_ ?_)
    · rw [abs_mul, abs_of_nonneg k0]; exact mul_le_mul_of_nonneg_left hx k0
    · have p1 : |dθ * ea| ≤ 2.85e-5 := (mul_bound h2 sa').trans (by norm_num)
      have p2 : |dζ * (eb * Real.cos a)| ≤ 1.91e-5 := (mul_bound h1 (mul_bound sb' cosA)).trans (by norm_num)
      have p3 : |dζ * ((b - b ^ 3 / 6) * fa)| ≤ 7e-7 := (mul_bound h1 (mul_bound hsb ca')).trans (by norm_num)
      have p4 : |dζ * (b ^ 3 * a ^ 2)| ≤ 9.6e-6 :=
        (mul_bound h1 (mul_bound (pow_bound hb 3) (pow_bound ha 2))).trans (by norm_num)
      exact (sum_bound p1 p2 p3 p4 (by norm_num : (0 : ℝ) < 12)).trans (by norm_num)
  · have e : -(dθ * k * Real.cos a) - dζ * k * Real.sin b * Real.sin a + k * V =
        k * (-(dθ - V + k ^ 2 * (dζ * Θ * Z - dθ * Z ^ 2 / 2) - (k ^ 2) ^ 2 * (dζ * Θ * Z * (Z ^ 2 + Θ ^ 2)) / 6) +
          (-(dθ * fa) - dζ * (eb * Real.sin a) - dζ * ((b - b ^ 3 / 6) * ea) - dζ * (b ^ 3 * a ^ 3) / 36)) := by
      rw [heb, hea, hfa, haD, hbD]; ring
    rw [e, abs_mul, abs_of_nonneg k0]
    refine mul_le_mul_of_nonneg_left ?_ k0
    refine (abs_add_le _ _).trans (add_le_add ?_ ?_)
    · rw [abs_neg]; exact hy
    · have p1 : |-(dθ * fa)| ≤ 2.85e-5 := by rw [abs_neg]; exact (mul_bound h2 ca').trans (by norm_num)
      have p2 : |dζ * (eb * Real.sin a)| ≤ 5e-7 := (mul_bound h1 (mul_bound sb' hsa)).trans (by norm_num)
      have p3 : |dζ * ((b - b ^ 3 / 6) * ea)| ≤ 7e-7 := (mul_bound h1 (mul_bound hsb sa')).trans (by norm_num)
      have p4 : |dζ * (b ^ 3 * a ^ 3)| ≤ 2.2e-7 :=
        (mul_bound h1 (mul_bound (pow_bound hb 3) (pow_bound ha 3))).trans (by norm_num)
      exact (sum_bound p1 p2 p3 p4 (by norm_num : (0 : ℝ) < 36)).trans (by norm_num)
  · have e : dz * k + dζ * k * Real.cos b - 2 * k * W =
        k * ((dz + dζ - 2 * W - k ^ 2 * (dζ * Θ ^ 2) / 2) + dζ * fb) := by
      rw [hfb, hbD]; ring
    rw [e, abs_mul, abs_of_nonneg k0]
    refine mul_le_mul_of_nonneg_left ?_ k0
    refine (abs_add_le _ _).trans (add_le_add hz ?_)
    exact (mul_bound h1 cb').trans (by norm_num)

/-- Replacing the square of the unit by a decimal, and the fourth order term by its leading coefficient. -/
theorem rate_decimal {t dζ dθ dz V W X Y Q zq θq : ℝ} (ht : |t| ≤ 2) (hz : 2300 ≤ zq ∧ zq ≤ 2310) (hθ : 2000 ≤ θq ∧ θq ≤ 2008)
    (h1 : 2301 ≤ dζ ∧ dζ ≤ 2310) (h2 : |dθ| ≤ 2020)
    (hx : |dθ * (zq * t) - dζ * (θq * t) + 2.350443e-11 * (-(dθ * (zq * t) ^ 3) / 6 + dζ * (θq * t) ^ 3 / 6 +
      dζ * (θq * t) * (zq * t) ^ 2 / 2)| ≤ X)
    (hy : |dθ - V + 2.350443e-11 * (dζ * (θq * t) * (zq * t) - dθ * (zq * t) ^ 2 / 2) - 9.16e-6 * t ^ 4| ≤ Y)
    (hq : |dz + dζ - 2 * W - 2.350443e-11 * (dζ * (θq * t) ^ 2) / 2| ≤ Q) :
    let ω := eulRate (θq * t * as2r) (zq * t * as2r) (dζ * as2r) (dθ * as2r) (dz * as2r)
    |ω 0| ≤ as2r * (as2r * (X + 0.01) + 0.00005) ∧ |ω 1 + as2r * V| ≤ as2r * (Y + 0.000005 + 0.00003) ∧
      |ω 2 - 2 * as2r * W| ≤ as2r * (Q + 0.000001 + 0.00002) := by
  have hZ' : |zq| ≤ 2310 := by rw [abs_le]; constructor <;> linarith
  have hΘ' : |θq| ≤ 2008 := by rw [abs_le]; constructor <;> linarith
  have hZ : |zq * t| ≤ 4620 := (mul_bound hZ' ht).trans (by norm_num)
  have hΘ : |θq * t| ≤ 4016 := (mul_bound hΘ' ht).trans (by norm_num)
  have h1' : |dζ| ≤ 2310 := by rw [abs_le]; constructor <;> linarith
  obtain ⟨kl, ku, hK⟩ := as2r_bounds
  obtain ⟨d, hd⟩ : ∃ d, as2r ^ 2 = 2.350443e-11 + d := ⟨_, (add_sub_cancel _ _).symm⟩
  have hK2 : (5.52e-22 : ℝ) ≤ (as2r ^ 2) ^ 2 ∧ (as2r ^ 2) ^ 2 ≤ 5.53e-22 := by
    have h := abs_le.1 hK
    have l : (2.3504e-11 : ℝ) ≤ as2r ^ 2 := by linarith
    have u : as2r ^ 2 ≤ 2.35047e-11 := by linarith
    have l2 : (2.3504e-11 : ℝ) ^ 2 ≤ (as2r ^ 2) ^ 2 := by gcongr
    have u2 : (as2r ^ 2) ^ 2 ≤ (2.35047e-11 : ℝ) ^ 2 := by gcongr
    constructor
    · refine le_trans ?_ l2; norm_num
    · refine u2.trans ?_; norm_num
  rw [hd, add_sub_cancel_left] at hK
  refine rate_near (hZ.trans (by norm_num)) (hΘ.trans (by norm_num)) (h1'.trans (by norm_num)) h2 ?_ ?_ ?_
  · generalize zq * t = z at *
    generalize θq * t = θ at *
    rw [hd]
    have e : dθ * z - dζ * θ + (2.350443e-11 + d) * (-(dθ * z ^ 3) / 6 + dζ * θ ^ 3 / 6 + dζ * θ * z ^ 2 / 2) =
      (dθ * z - dζ * θ + 2.350443e-11 * (-(dθ * z ^ 3) / 6 + dζ * θ ^ 3 / 6 + dζ * θ * z ^ 2 / 2)) +
      d * (-(dθ * z ^ 3) / 6 + dζ * θ ^ 3 / 6 + dζ * θ * z ^ 2 / 2) := by ring
    rw [e]
    refine (abs_add_le _ _).trans (add_le_add hx ?_)
    have p1 := abs_le.1 (mul_bound h2 (pow_bound hZ 3))
    have p2 := abs_le.1 (mul_bound h1' (pow_bound hΘ 3))
    have p3 := abs_le.1 (mul_bound (mul_bound h1' hΘ) (pow_bound hZ 2))
    have : |-(dθ * z ^ 3) / 6 + dζ * θ ^ 3 / 6 + dζ * θ * z ^ 2 / 2| ≤ 2e14 := by
      clear hx hy hq e
      generalize dθ * z ^ 3 = u1 at *
      generalize dζ * θ ^ 3 = u2 at *
      generalize dζ * θ * z ^ 2 = u3 at *
      norm_num at p1 p2 p3
      rw [abs_le]; constructor <;> linarith
    exact (mul_bound hK this).trans (by norm_num)
  · have q4 : |(as2r ^ 2) ^ 2 * (dζ * (θq * t) * (zq * t) * ((zq * t) ^ 2 + (θq * t) ^ 2)) / 6 - 9.16e-6 * t ^ 4| ≤ 3e-6 := by
      have t4 : 0 ≤ t ^ 4 ∧ t ^ 4 ≤ 16 := by
        constructor
        · positivity
        · have := pow_bound ht 4
          rw [abs_of_nonneg (by positivity)] at this
          exact this.trans (by norm_num)
      have e : (as2r ^ 2) ^ 2 * (dζ * (θq * t) * (zq * t) * ((zq * t) ^ 2 + (θq * t) ^ 2)) / 6 - 9.16e-6 * t ^ 4 =
        ((as2r ^ 2) ^ 2 * (dζ * θq * zq * (zq ^ 2 + θq ^ 2)) / 6 - 9.16e-6) * t ^ 4 := by ring
      rw [e]
      have z2 : (2300 : ℝ) ^ 2 ≤ zq ^ 2 ∧ zq ^ 2 ≤ 2310 ^ 2 := ⟨by gcongr; exact hz.1, by gcongr <;> linarith⟩
      have θ2 : (2000 : ℝ) ^ 2 ≤ θq ^ 2 ∧ θq ^ 2 ≤ 2008 ^ 2 := ⟨by gcongr; exact hθ.1, by gcongr <;> linarith⟩
      have lo : (5.52e-22 : ℝ) * (2301 * 2000 * 2300 * (2300 ^ 2 + 2000 ^ 2)) ≤
          (as2r ^ 2) ^ 2 * (dζ * θq * zq * (zq ^ 2 + θq ^ 2)) := by
        have d0 : (2301 * 2000 * 2300 * (2300 ^ 2 + 2000 ^ 2) : ℝ) ≤ dζ * θq * zq * (zq ^ 2 + θq ^ 2) :=
          mul_le_mul (mul_le_mul (mul_le_mul h1.1 hθ.1 (by norm_num) (by linarith)) hz.1 (by norm_num)
            (mul_nonneg (by linarith) (by linarith))) (by linarith) (by norm_num)
            (mul_nonneg (mul_nonneg (by linarith) (by linarith)) (by linarith))
        exact mul_le_mul hK2.1 d0 (by norm_num) (by positivity)
      have hi : (as2r ^ 2) ^ 2 * (dζ * θq * zq * (zq ^ 2 + θq ^ 2)) ≤
          (5.53e-22 : ℝ) * (2310 * 2008 * 2310 * (2310 ^ 2 + 2008 ^ 2)) := by
        have d0 : dζ * θq * zq * (zq ^ 2 + θq ^ 2) ≤ (2310 * 2008 * 2310 * (2310 ^ 2 + 2008 ^ 2) : ℝ) :=
          mul_le_mul (mul_le_mul (mul_le_mul h1.2 hθ.2 (by linarith) (by norm_num)) hz.2 (by linarith)
            (by norm_num)) (by linarith) (by positivity) (by norm_num)
        exact mul_le_mul hK2.2 d0 (mul_nonneg (mul_nonneg (mul_nonneg (by linarith) (by linarith)) (by linarith))
          (by positivity)) (by norm_num)
      have : |(as2r ^ 2) ^ 2 * (dζ * θq * zq * (zq ^ 2 + θq ^ 2)) / 6 - 9.16e-6| ≤ 1.8e-7 := by
        norm_num at lo hi
        rw [abs_le]; constructor <;> linarith
      rw [abs_mul, abs_of_nonneg t4.1]
      calc _ ≤ 1.8e-7 * (16 : ℝ) := mul_le_mul this t4.2 t4.1 (by norm_num)
        _ ≤ _ := by norm_num
    generalize (as2r ^ 2) ^ 2 * (dζ * (θq * t) * (zq * t) * ((zq * t) ^ 2 + (θq * t) ^ 2)) / 6 = q at *
    generalize zq * t = z at *
    generalize θq * t = θ at *
    rw [hd]
    have e : dθ - V + (2.350443e-11 + d) * (dζ * θ * z - dθ * z ^ 2 / 2) - q =
      (dθ - V + 2.350443e-11 * (dζ * θ * z - dθ * z ^ 2 / 2) - 9.16e-6 * t ^ 4) +
      (d * (dζ * θ * z - dθ * z ^ 2 / 2) + -(q - 9.16e-6 * t ^ 4)) := by ring
    rw [e]
    refine (abs_add_le _ _).trans (add_le_add hy ((abs_add_le _ _).trans ?_))
    rw [abs_neg]
    have p1 := abs_le.1 (mul_bound (mul_bound h1' hΘ) hZ)
    have p2 := abs_le.1 (mul_bound h2 (pow_bound hZ 2))
    have : |dζ * θ * z - dθ * z ^ 2 / 2| ≤ 6.6e10 := by
      clear hx hy hq e q4
      generalize dζ * θ * z = u1 at *
      generalize dθ * z ^ 2 = u2 at *
      norm_num at p1 p2
      rw [abs_le]; constructor <;> linarith
    have h3 := (mul_bound hK this)
    norm_num at h3 q4 ⊢
    linarith
  · generalize θq * t = θ at *
    rw [hd]
    have e : dz + dζ - 2 * W - (2.350443e-11 + d) * (dζ * θ ^ 2) / 2 =
      (dz + dζ - 2 * W - 2.350443e-11 * (dζ * θ ^ 2) / 2) + -(d * (dζ * θ ^ 2) / 2) := by ring
    rw [e]
    refine (abs_add_le _ _).trans (add_le_add hq ?_)
    rw [abs_neg, abs_div]
    have := mul_bound hK (mul_bound h1' (pow_bound hΘ 2))
    norm_num at this ⊢
    linarith

/-- The length of a small vector. -/
theorem len_le_of_abs {v : Vec} {x y z d : ℝ} (h0 : |v 0| ≤ x) (h1 : |v 1| ≤ y) (h2 : |v 2| ≤ z) (hd : 0 ≤ d)
    (h : x ^ 2 + y ^ 2 + z ^ 2 ≤ d ^ 2) : len v ≤ d := by
  unfold len
  rw [Real.sqrt_le_left hd]
  simp only [dotProduct, Fin.sum_univ_three]
  have a0 := sq_le_sq' (abs_le.1 h0).1 (abs_le.1 h0).2
  have a1 := sq_le_sq' (abs_le.1 h1).1 (abs_le.1 h1).2
  have a2 := sq_le_sq' (abs_le.1 h2).1 (abs_le.1 h2).2
  nlinarith

end Sla
