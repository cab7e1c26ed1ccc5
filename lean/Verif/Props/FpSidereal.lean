import Verif.Props.FpRange
import Verif.Props.Angles

/-
Property theorems C82: sidereal time in double precision.
-/
namespace Sla.Props
open Sla.Fp

/-- Error of one rounding, with the bound on the magnitude given as a power of two. -/
private theorem e64 (R : Rounding binary64) (x : ℝ) (k : ℤ) (hk : -1021 ≤ k) (hx : |x| < 2 ^ k) :
    |R x - x| ≤ 2 ^ (k - 54) := by
  have := R.abs_sub_le x (k := k) (by norm_num [binary64]; exact hk) hx
  rw [abs_sub_comm] at this
  convert this using 2
  norm_num [binary64]; ring

private theorem mul_near {a a0 b b0 ea eb A B : ℝ} (ha : |a - a0| ≤ ea) (hb : |b - b0| ≤ eb) (hA : |a0| ≤ A) (hB : |b| ≤ B) :
    |a * b - a0 * b0| ≤ ea * B + A * eb := by
  have e : a * b - a0 * b0 = (a - a0) * b + a0 * (b - b0) := by ring
  rw [e]
  refine (abs_add_le _ _).trans (add_le_add ?_ ?_)
  · rw [abs_mul]; exact mul_le_mul ha hB (abs_nonneg _) ((abs_nonneg _).trans ha)
  · rw [abs_mul]; exact mul_le_mul hA hb (abs_nonneg _) ((abs_nonneg _).trans hA)

/-- The polynomial of seconds, evaluated in double precision at `j` near `t`. -/
private theorem poly_near (R : Rounding binary64) (j t : ℝ) (ht : |t| ≤ 2) (hj : |j - t| ≤ 8.6e-16) :
    |R (R 24110.54841 + R (R (R 8640184.812866 + R (R (R 0.093104 - R (R 6.2e-6 * j)) * j)) * j)) -
      (24110.54841 + (8640184.812866 + (0.093104 - 6.2e-6 * t) * t) * t)| ≤ 7.7e-9 + 8640190 * |j - t| := by
  have l0 := e64 R 24110.54841 15 (by norm_num) (by norm_num [abs_of_pos])
  have l1 := e64 R 8640184.812866 24 (by norm_num) (by norm_num [abs_of_pos])
  have l2 := e64 R 0.093104 (-3) (by norm_num) (by norm_num [abs_of_pos])
  have l3 := e64 R 6.2e-6 (-17) (by norm_num) (by norm_num [abs_of_pos])
  generalize R 24110.54841 = c0 at *
  generalize R 8640184.812866 = c1 at *
  generalize R 0.093104 = c2 at *
  generalize R 6.2e-6 = c3 at *
  obtain ⟨ε, hε⟩ : ∃ ε, ε = |j - t| := ⟨_, rfl⟩
  have hε0 : 0 ≤ ε := by rw [hε]; exact abs_nonneg _
  rw [← hε] at hj ⊢
  have hjt : |j - t| ≤ ε := hε.ge
  have hj2 : |j| ≤ 2.0001 := by
    have := abs_add_le t (j - t)
    rw [add_sub_cancel] at this
    norm_num at hj ⊢; linarith
  -- c3 * j
  have m1 := mul_near l3 hjt (A := 6.2e-6) (by norm_num [abs_of_pos]) hj2
  have t1 : |6.2e-6 * t| ≤ 1.24e-5 := by
    rw [abs_mul, abs_of_pos (by norm_num)]; norm_num at ht ⊢; linarith
  generalize hx1 : 6.2e-6 * t = y1 at *
  generalize c3 * j = x1 at *
  have r1 := e64 R x1 (-16) (by norm_num) (by
    rw [abs_le] at m1 t1; rw [abs_lt]; norm_num at *; constructor <;> linarith [m1.1, m1.2, t1.1, t1.2])
  generalize R x1 = z1 at *
  have n1 : |z1 - y1| ≤ 1e-20 + 6.2e-6 * ε := by
    rw [abs_le] at *; norm_num at *; constructor <;> linarith [m1.1, m1.2, r1.1, r1.2]
  -- c2 - ...
  have r2 := e64 R (c2 - z1) (-3) (by norm_num) (by
    rw [abs_le] at n1 t1 l2; rw [abs_lt]; norm_num at *
    constructor <;> linarith [n1.1, n1.2, t1.1, t1.2, l2.1, l2.2])
  generalize R (c2 - z1) = z2 at *
  have n2 : |z2 - (0.093104 - y1)| ≤ 1.5e-17 + 6.2e-6 * ε := by
    rw [abs_le] at *; norm_num at *
    constructor <;> linarith [n1.1, n1.2, r2.1, r2.2, l2.1, l2.2]
  have t2 : |0.093104 - y1| ≤ 0.0932 := by
    rw [abs_le] at *; norm_num at *; constructor <;> linarith [t1.1, t1.2]
  clear n1 r2 l2 l3 m1 r1 t1 hx1
  generalize hq2 : 0.093104 - y1 = y2 at *
  -- * j
  have m3 := mul_near n2 hjt t2 hj2
  have t3 : |y2 * t| ≤ 0.2 := by
    rw [abs_mul]
    calc |y2| * |t| ≤ 0.0932 * 2 := mul_le_mul t2 ht (abs_nonneg _) (by norm_num)
      _ ≤ 0.2 := by norm_num
  clear n2 t2
  generalize hq3 : y2 * t = y3 at *
  generalize z2 * j = x3 at *
  have r3 := e64 R x3 (-2) (by norm_num) (by
    rw [abs_le] at m3 t3; rw [abs_lt]; norm_num at *; constructor <;> linarith [m3.1, m3.2, t3.1, t3.2])
  generalize R x3 = z3 at *
  have n3 : |z3 - y3| ≤ 1e-15 + 0.1 * ε := by
    rw [abs_le] at *; norm_num at *; constructor <;> linarith [m3.1, m3.2, r3.1, r3.2]
  clear m3 r3
  -- c1 + ...
  have r4 := e64 R (c1 + z3) 24 (by norm_num) (by
    rw [abs_le] at n3 t3 l1; rw [abs_lt]; norm_num at *
    constructor <;> linarith [n3.1, n3.2, t3.1, t3.2, l1.1, l1.2])
  generalize R (c1 + z3) = z4 at *
  have n4 : |z4 - (8640184.812866 + y3)| ≤ 1.8627e-9 + 0.1 * ε := by
    rw [abs_le] at *; norm_num at *
    constructor <;> linarith [n3.1, n3.2, r4.1, r4.2, l1.1, l1.2]
  have t4 : |8640184.812866 + y3| ≤ 8640186 := by
    rw [abs_le] at *; norm_num at *; constructor <;> linarith [t3.1, t3.2]
  clear n3 r4 l1 t3
  generalize hq4 : 8640184.812866 + y3 = y4 at *
  -- * j
  have m5 := mul_near n4 hjt t4 hj2
  have t5 : |y4 * t| ≤ 17280372 := by
    rw [abs_mul]
    calc |y4| * |t| ≤ 8640186 * 2 := mul_le_mul t4 ht (abs_nonneg _) (by norm_num)
      _ = _ := by norm_num
  clear n4 t4
  generalize hq5 : y4 * t = y5 at *
  generalize z4 * j = x5 at *
  have r5 := e64 R x5 25 (by norm_num) (by
    rw [abs_le] at m5 t5; rw [abs_lt]; norm_num at *; constructor <;> linarith [m5.1, m5.2, t5.1, t5.2])
  generalize R x5 = z5 at *
  have n5 : |z5 - y5| ≤ 5.6e-9 + 8640187 * ε := by
    rw [abs_le] at *; norm_num at *; constructor <;> linarith [m5.1, m5.2, r5.1, r5.2]
  clear m5 r5
  have r6 := e64 R (c0 + z5) 25 (by norm_num) (by
    rw [abs_le] at n5 t5 l0; rw [abs_lt]; norm_num at *
    constructor <;> linarith [n5.1, n5.2, t5.1, t5.2, l0.1, l0.2])
  generalize R (c0 + z5) = z6 at *
  rw [abs_le] at *; norm_num at *
  constructor <;> linarith [n5.1, n5.2, r6.1, r6.2, l0.1, l0.2]

private theorem poly_size (t : ℝ) (ht : |t| ≤ 2) :
    |24110.54841 + (8640184.812866 + (0.093104 - 6.2e-6 * t) * t) * t| ≤ 17305000 := by
  have h1 : |(0.093104 - 6.2e-6 * t) * t| ≤ 0.1 * 2 := by
    rw [abs_mul]
    refine mul_le_mul ?_ ht (abs_nonneg _) (by norm_num)
    rw [abs_le] at *; norm_num; constructor <;> linarith [ht.1, ht.2]
  have h2 : |(8640184.812866 + (0.093104 - 6.2e-6 * t) * t) * t| ≤ 8640186 * 2 := by
    rw [abs_mul]
    refine mul_le_mul ?_ ht (abs_nonneg _) (by norm_num)
    generalize (0.093104 - 6.2e-6 * t) * t = u at *
    rw [abs_le] at *; norm_num; constructor <;> linarith [h1.1, h1.2]
  generalize (8640184.812866 + (0.093104 - 6.2e-6 * t) * t) * t = u at *
  rw [abs_le] at *; norm_num; constructor <;> linarith [h2.1, h2.2]

private theorem turn_near : |(884279719003555 / 2 ^ 47 : ℝ) - 2 * Real.pi| ≤ 2.5e-16 := by
  have h1 := Real.pi_gt_d20
  have h2 := Real.pi_lt_d20
  rw [abs_le]; norm_num at *; constructor <;> linarith

private theorem s2r_near (R : Rounding binary64) (x : ℝ) (hx : |x - 7.272205216643039903848712e-5| ≤ 1e-26) :
    |R x - 2 * Real.pi / 86400| ≤ 7e-21 := by
  have h1 := Real.pi_gt_d20
  have h2 := Real.pi_lt_d20
  have h3 := e64 R x (-13) (by norm_num) (by
    rw [abs_le] at hx; rw [abs_lt]; norm_num at *; constructor <;> linarith [hx.1, hx.2])
  rw [abs_le] at *; norm_num at *; constructor <;> linarith [h3.1, h3.2, hx.1, hx.2]

/-- Reduction to one turn: from a near argument to a near result. -/
private theorem dranrm_near (R : Rounding binary64) (x y e : ℝ) (hx : binary64.Rep x) (hb : |x| ≤ 1300)
    (h : |x - y| ≤ e) : ∃ k : ℤ, |Fp.dranrm R x - dranrm y - 2 * Real.pi * k| ≤ e + 6e-14 := by
  obtain ⟨d0, d1, ⟨k, hk⟩, -⟩ := C77_dranrm R x hx
  obtain ⟨-, -, m, hm⟩ := C15_dranrm y
  have ht := turn_near
  generalize Fp.dranrm R x = r at *
  generalize (884279719003555 / 2 ^ 47 : ℝ) = A at *
  have hA : |A - 6.2831853| ≤ 1e-5 := by
    have h1 := Real.pi_gt_d6
    have h2 := Real.pi_lt_d6
    rw [abs_le] at *; norm_num at *; constructor <;> linarith [ht.1, ht.2]
  have hkA : |A * k| ≤ 1310 := by
    rw [abs_le] at *; norm_num at *; constructor <;> linarith [hk.1, hk.2, hb.1, hb.2, hA.1, hA.2]
  have hk2 : |(k : ℝ)| ≤ 210 := by
    rw [abs_mul] at hkA
    have : 6.28 ≤ |A| := by
      rw [abs_le] at hA; norm_num at hA
      refine le_trans ?_ (le_abs_self A); norm_num; linarith [hA.1]
    norm_num at this
    nlinarith [abs_nonneg (k : ℝ)]
  have hkp : |(A - 2 * Real.pi) * k| ≤ 2.5e-16 * 210 := by
    rw [abs_mul]; exact mul_le_mul ht hk2 (abs_nonneg _) (by norm_num)
  refine ⟨-k - m, ?_⟩
  rw [hm]
  push_cast
  have e1 : r - (y + 2 * Real.pi * m) - 2 * Real.pi * (-(k : ℝ) - m) =
      (r - (x - A * k)) + (x - y) - (A - 2 * Real.pi) * k := by ring
  rw [e1]
  generalize (A - 2 * Real.pi) * k = w at *
  generalize r - (x - A * k) = u at *
  rw [abs_le] at *; norm_num at *; constructor <;> linarith [hk.1, hk.2, h.1, h.2, hkp.1, hkp.2]

/-- C82: sidereal time computed in double precision is right to 1.5e-12 rad (21 nanoseconds), whole turns apart, for every
    date within two centuries of J2000, and it lies between 0 and the full turn constant. -/
theorem C82_gmst (R : Rounding binary64) (ut1 : ℝ) (hr : binary64.Rep ut1) (h : |ut1 - 51544.5| ≤ 73050) :
    (∃ k : ℤ, |Fp.gmst R ut1 - gmst ut1 - 2 * Real.pi * k| ≤ 1.5e-12) ∧
      0 ≤ Fp.gmst R ut1 ∧ Fp.gmst R ut1 ≤ 884279719003555 / 2 ^ 47 := by
  unfold Fp.gmst gmst
  have lD : R 6.283185307179586476925286766559 = 884279719003555 / 2 ^ 47 := by
    have h := R.eq_of_near (x := 6.283185307179586476925286766559) (m := 7074237752028440) (e := -50)
      (by simp [binary64]) (by norm_num [binary64]) (by norm_num [binary64])
      (by rw [abs_lt]; norm_num)
    rw [h]; norm_num
  have lS := s2r_near R 7.272205216643039903848711535369e-5 (by rw [abs_le]; norm_num)
  have ht := turn_near
  rw [lD]
  generalize R 7.272205216643039903848711535369e-5 = S at *
  -- centuries
  have a1 := e64 R (ut1 - 51544.5) 17 (by norm_num) (by
    rw [abs_le] at h; rw [abs_lt]; norm_num at *; constructor <;> linarith [h.1, h.2])
  obtain ⟨t, ht'⟩ : ∃ t, t = (ut1 - 51544.5) / 36525 := ⟨_, rfl⟩
  have htu : ut1 - 51544.5 = 36525 * t := by rw [ht']; field_simp
  have ht2 : |t| ≤ 2 := by
    rw [htu, abs_mul, abs_of_pos (by norm_num)] at h; linarith
  rw [htu] at a1 ⊢
  generalize R (36525 * t) = u at *
  have a2 := e64 R (u / 36525) 2 (by norm_num) (by
    rw [abs_le] at ht2 a1; rw [abs_lt]; norm_num at *; constructor <;> linarith [ht2.1, ht2.2, a1.1, a1.2])
  generalize R (u / 36525) = j at *
  have hj : |j - t| ≤ 4.3e-16 := by
    rw [abs_le] at *; norm_num at *; constructor <;> linarith [a1.1, a1.2, a2.1, a2.2]
  have hp := poly_near R j t ht2 (hj.trans (by norm_num))
  have hps := poly_size t ht2
  simp only [mul_div_cancel_left₀ t (by norm_num : (36525 : ℝ) ≠ 0)]
  generalize R (R 24110.54841 + R (R (R 8640184.812866 + R (R (R 0.093104 - R (R 6.2e-6 * j)) * j)) * j)) = p at *
  generalize 24110.54841 + (8640184.812866 + (0.093104 - 6.2e-6 * t) * t) * t = q at *
  have hpq : |p - q| ≤ 1.15e-8 := by
    generalize |j - t| = ε at *
    rw [abs_le] at *; norm_num at *; constructor <;> linarith [hp.1, hp.2]
  have hS : |S| ≤ 7.3e-5 := by
    have h2 := Real.pi_lt_d6
    have h3 := Real.pi_gt_d6
    rw [abs_le] at *; norm_num at *; constructor <;> linarith [lS.1, lS.2]
  have m1 := mul_near hpq lS hps hS
  have hqs : |q * (2 * Real.pi / 86400)| ≤ 17305000 * 7.2723e-5 := by
    rw [abs_mul]
    refine mul_le_mul hps ?_ (abs_nonneg _) (by norm_num)
    have h2 := Real.pi_lt_d6
    rw [abs_of_pos (by positivity)]; norm_num at *; linarith
  -- fraction of the day
  have hf := (abs_cfmod ut1 1 one_pos).2
  have hrf : binary64.Rep (cfmod ut1 1) := rep_cfmod hr (by
    have := rep_int (F := binary64) (n := 1) (by norm_num [binary64]) (by norm_num [binary64])
    simpa using this) one_pos
  rw [R.eq_self hrf]
  generalize cfmod ut1 1 = f at *
  have m2 := mul_near (a := f) (a0 := f) (b := 884279719003555 / 2 ^ 47) (ea := 0) (by simp) ht hf.le (B := 7)
    (by rw [abs_of_pos (by norm_num)]; norm_num)
  have hfp : |f * (2 * Real.pi)| ≤ 1 * 6.2832 := by
    rw [abs_mul]
    refine mul_le_mul hf.le ?_ (abs_nonneg _) (by norm_num)
    have h2 := Real.pi_lt_d6
    rw [abs_of_pos (by positivity)]; norm_num at *; linarith
  generalize f * (884279719003555 / 2 ^ 47) = x2 at *
  generalize f * (2 * Real.pi) = y2 at *
  generalize p * S = x1 at *
  generalize q * (2 * Real.pi / 86400) = y1 at *
  clear hr hrf h hp hps lS ht hS hpq hf lD
  have r1 := e64 R x1 11 (by norm_num) (by
    rw [abs_le] at m1 hqs; rw [abs_lt]; norm_num at *; constructor <;> linarith [m1.1, m1.2, hqs.1, hqs.2])
  generalize R x1 = z1 at *
  have r2 := e64 R x2 3 (by norm_num) (by
    rw [abs_le] at m2 hfp; rw [abs_lt]; norm_num at *; constructor <;> linarith [m2.1, m2.2, hfp.1, hfp.2])
  generalize R x2 = z2 at *
  have r3 := e64 R (z2 + z1) 11 (by norm_num) (by
    rw [abs_le] at m1 hqs m2 hfp r1 r2; rw [abs_lt]; norm_num at *
    constructor <;> linarith [m1.1, m1.2, hqs.1, hqs.2, m2.1, m2.2, hfp.1, hfp.2, r1.1, r1.2, r2.1, r2.2])
  have hrx := R.rep (z2 + z1)
  generalize R (z2 + z1) = x at *
  have hb : |x| ≤ 1300 := by
    rw [abs_le] at *; norm_num at *
    constructor <;> linarith [m1.1, m1.2, hqs.1, hqs.2, m2.1, m2.2, hfp.1, hfp.2, r1.1, r1.2, r2.1, r2.2, r3.1, r3.2]
  have hxy : |x - (y2 + y1)| ≤ 1.44e-12 := by
    rw [abs_le] at *; norm_num at *
    constructor <;> linarith [m1.1, m1.2, m2.1, m2.2, r1.1, r1.2, r2.1, r2.2, r3.1, r3.2]
  obtain ⟨k, hk⟩ := dranrm_near R x (y2 + y1) _ hrx hb hxy
  obtain ⟨d0, d1, -⟩ := C77_dranrm R x hrx
  exact ⟨⟨k, hk.trans (by norm_num)⟩, d0, d1⟩

/-- C82: the same for date and time given separately, in either order, however the instant is split: 1.7e-12 rad. -/
theorem C82_gmsta (R : Rounding binary64) (date fdate : ℝ) (hd : binary64.Rep date) (hf : binary64.Rep fdate)
    (h1 : |date| ≤ 130000) (h2 : |fdate| ≤ 130000) (h : |date + fdate - 51544.5| ≤ 73050) :
    (∃ k : ℤ, |Fp.gmsta R date fdate - gmsta date fdate - 2 * Real.pi * k| ≤ 1.7e-12) ∧
      0 ≤ Fp.gmsta R date fdate ∧ Fp.gmsta R date fdate ≤ 884279719003555 / 2 ^ 47 := by
  have key : ∀ d1 d2 : ℝ, binary64.Rep d1 → binary64.Rep d2 → |d1| ≤ 130000 → |d2| ≤ 130000 →
      |d1 + d2 - 51544.5| ≤ 73050 → ∃ x,
      x = R (R 7.272205216643039903848712e-5 * R (R (R 24110.54841 + R (R (R 8640184.812866 +
        R (R (R 0.093104 - R (R 6.2e-6 * R (R (d1 + R (d2 - 51544.5)) / 36525))) * R (R (d1 + R (d2 - 51544.5)) / 36525))) *
          R (R (d1 + R (d2 - 51544.5)) / 36525))) + R (86400 * R (R (cfmod d1 1) + R (cfmod d2 1))))) ∧ binary64.Rep x ∧ |x| ≤ 1300 ∧
      |x - 2 * Real.pi / 86400 * (24110.54841 + (8640184.812866 +
    (0.093104 - 6.2e-6 * ((d1 + (d2 - 51544.5)) / 36525)) * ((d1 + (d2 - 51544.5)) / 36525)) *
      ((d1 + (d2 - 51544.5)) / 36525) + 86400 * (cfmod d1 1 + cfmod d2 1))| ≤ 1.64e-12 := by
    intro d1 d2 hr1 hr2 h1 h2 h
    refine ⟨_, rfl, R.rep _, ?_⟩
    have lS := s2r_near R 7.272205216643039903848712e-5 (by rw [abs_le]; norm_num)
    generalize R 7.272205216643039903848712e-5 = S at *
    -- centuries
    have a0 := e64 R (d2 - 51544.5) 18 (by norm_num) (by
      rw [abs_le] at h2; rw [abs_lt]; norm_num at *; constructor <;> linarith [h2.1, h2.2])
    generalize R (d2 - 51544.5) = w at *
    have a1 := e64 R (d1 + w) 17 (by norm_num) (by
      rw [abs_le] at h a0; rw [abs_lt]; norm_num at *; constructor <;> linarith [h.1, h.2, a0.1, a0.2])
    obtain ⟨t, ht'⟩ : ∃ t, t = (d1 + (d2 - 51544.5)) / 36525 := ⟨_, rfl⟩
    have htu : d1 + (d2 - 51544.5) = 36525 * t := by rw [ht']; field_simp
    have ht2 : |t| ≤ 2 := by
      rw [show d1 + d2 - 51544.5 = d1 + (d2 - 51544.5) by ring, htu, abs_mul, abs_of_pos (by norm_num)] at h; linarith
    generalize R (d1 + w) = u at *
    have hu : |u - 36525 * t| ≤ 2.2e-11 := by
      rw [← htu]; rw [abs_le] at *; norm_num at *; constructor <;> linarith [a0.1, a0.2, a1.1, a1.2]
    have a2 := e64 R (u / 36525) 2 (by norm_num) (by
      rw [abs_le] at ht2 hu; rw [abs_lt]; norm_num at *; constructor <;> linarith [ht2.1, ht2.2, hu.1, hu.2])
    generalize R (u / 36525) = j at *
    have hj : |j - t| ≤ 8.4e-16 := by
      rw [abs_le] at *; norm_num at *; constructor <;> linarith [hu.1, hu.2, a2.1, a2.2]
    have hp := poly_near R j t ht2 (hj.trans (by norm_num))
    have hps := poly_size t ht2
    simp only [← ht']
    generalize R (R 24110.54841 + R (R (R 8640184.812866 + R (R (R 0.093104 - R (R 6.2e-6 * j)) * j)) * j)) = p at *
    generalize 24110.54841 + (8640184.812866 + (0.093104 - 6.2e-6 * t) * t) * t = q at *
    have hpq : |p - q| ≤ 1.5e-8 := by
      generalize |j - t| = ε at *
      rw [abs_le] at *; norm_num at *; constructor <;> linarith [hp.1, hp.2]
    -- fractions of the day
    have rep1 : binary64.Rep 1 := by
      have := rep_int (F := binary64) (n := 1) (by norm_num [binary64]) (by norm_num [binary64])
      simpa using this
    have f1 := (abs_cfmod d1 1 one_pos).2
    have f2 := (abs_cfmod d2 1 one_pos).2
    rw [R.eq_self (rep_cfmod hr1 rep1 one_pos), R.eq_self (rep_cfmod hr2 rep1 one_pos)]
    generalize cfmod d1 1 = g1 at *
    generalize cfmod d2 1 = g2 at *
    clear a0 a1 a2 hu hj hp hr1 hr2 h1 h2 h htu ht' ht2
    have b1 := e64 R (g1 + g2) 1 (by norm_num) (by
      rw [abs_lt] at *; norm_num at *; constructor <;> linarith [f1.1, f1.2, f2.1, f2.2])
    generalize R (g1 + g2) = s1 at *
    have b2 := e64 R (86400 * s1) 18 (by norm_num) (by
      rw [abs_le] at b1; rw [abs_lt] at *; norm_num at *
      constructor <;> linarith [f1.1, f1.2, f2.1, f2.2, b1.1, b1.2])
    generalize R (86400 * s1) = s2 at *
    have b3 := e64 R (p + s2) 25 (by norm_num) (by
      rw [abs_le] at b1 b2 hpq hps; rw [abs_lt] at *; norm_num at *
      constructor <;> linarith [f1.1, f1.2, f2.1, f2.2, b1.1, b1.2, b2.1, b2.2, hpq.1, hpq.2, hps.1, hps.2])
    generalize R (p + s2) = s3 at *
    have hs : |s3 - (q + 86400 * (g1 + g2))| ≤ 1.7e-8 := by
      rw [abs_le] at *; norm_num at *
      constructor <;> linarith [b1.1, b1.2, b2.1, b2.2, b3.1, b3.2, hpq.1, hpq.2]
    have hss : |q + 86400 * (g1 + g2)| ≤ 17477800 := by
      rw [abs_le] at *; rw [abs_lt] at *; norm_num at *
      constructor <;> linarith [f1.1, f1.2, f2.1, f2.2, hps.1, hps.2]
    clear b1 b2 b3 hpq hps f1 f2
    generalize q + 86400 * (g1 + g2) = Q at *
    have hS : |S| ≤ 7.3e-5 := by
      have h2 := Real.pi_lt_d6
      have h3 := Real.pi_gt_d6
      rw [abs_le] at *; norm_num at *; constructor <;> linarith [lS.1, lS.2]
    have m1 := mul_near hs lS hss hS
    have hqs : |Q * (2 * Real.pi / 86400)| ≤ 17477800 * 7.2723e-5 := by
      rw [abs_mul]
      refine mul_le_mul hss ?_ (abs_nonneg _) (by norm_num)
      have h2 := Real.pi_lt_d6
      rw [abs_of_pos (by positivity)]; norm_num at *; linarith
    rw [mul_comm S, mul_comm (2 * Real.pi / 86400)]
    generalize s3 * S = x1 at *
    generalize Q * (2 * Real.pi / 86400) = y1 at *
    clear hs lS hss hS
    have r1 := e64 R x1 11 (by norm_num) (by
      rw [abs_le] at m1 hqs; rw [abs_lt]; norm_num at *; constructor <;> linarith [m1.1, m1.2, hqs.1, hqs.2])
    generalize R x1 = z1 at *
    rw [abs_le] at *
    rw [abs_le] at *
    norm_num at *
    refine ⟨⟨?_, ?_⟩, ?_, ?_⟩ <;> linarith [m1.1, m1.2, hqs.1, hqs.2, r1.1, r1.2]
  unfold Fp.gmsta gmsta
  split
  · obtain ⟨x, e, hx, hb, hn⟩ := key date fdate hd hf h1 h2 h
    simp only
    rw [← e]
    obtain ⟨k, hk⟩ := dranrm_near R x _ _ hx hb hn
    obtain ⟨d0, d1, -⟩ := C77_dranrm R x hx
    exact ⟨⟨k, hk.trans (by norm_num)⟩, d0, d1⟩
  · obtain ⟨x, e, hx, hb, hn⟩ := key fdate date hf hd h2 h1 (by rwa [add_comm fdate])
    simp only
    rw [← e]
    obtain ⟨k, hk⟩ := dranrm_near R x _ _ hx hb hn
    obtain ⟨d0, d1, -⟩ := C77_dranrm R x hx
    exact ⟨⟨k, hk.trans (by norm_num)⟩, d0, d1⟩

example : binary64.Rep 60000.25 ∧ |(60000.25 : ℝ) - 51544.5| ≤ 73050 :=
  ⟨⟨240001, -2, by norm_num [binary64], by norm_num [binary64], by norm_num⟩, by norm_num [abs_of_pos]⟩

example : binary64.Rep 60000 ∧ binary64.Rep 0.25 ∧ |(60000 : ℝ)| ≤ 130000 ∧ |(0.25 : ℝ)| ≤ 130000 ∧
    |(60000 : ℝ) + 0.25 - 51544.5| ≤ 73050 :=
  ⟨⟨60000, 0, by norm_num [binary64], by norm_num [binary64], by norm_num⟩,
    ⟨1, -2, by norm_num [binary64], by norm_num [binary64], by norm_num⟩, by norm_num [abs_of_pos],
    by norm_num [abs_of_pos], by norm_num [abs_of_pos]⟩

end Sla.Props
