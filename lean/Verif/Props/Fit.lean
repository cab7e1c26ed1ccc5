import Verif.Model.Fit
import Verif.Props.HourAngle
import Mathlib.Analysis.SpecialFunctions.Trigonometric.Basic

/-
C37 pincushion distortion; C38 model inversion; C39 decomposition of models.
-/
namespace Sla.Props
open Sla Real

theorem ucbrt_cube (w : ℝ) : ucbrt w ^ 3 = w := by
  unfold ucbrt csign
  have h : (|w| ^ (1 / 3 : ℝ)) ^ 3 = |w| := by
    rw [← rpow_natCast, ← rpow_mul (abs_nonneg w)]; norm_num
  have h0 : 0 ≤ |w| ^ (1 / 3 : ℝ) := rpow_nonneg (abs_nonneg w) _
  rw [abs_of_nonneg h0]
  split_ifs with hw
  · rw [h, abs_of_nonneg hw]
  · rw [neg_pow, h, abs_of_neg (not_le.1 hw)]; ring

theorem cube_inj {a b : ℝ} (h : a ^ 3 = b ^ 3) : a = b :=
  (Odd.strictMono_pow (by decide : Odd 3)).injective h

/-- The three values computed by the geometrical method are the three roots of the cubic. -/
theorem trig_roots {c rp w t : ℝ} (hw : w ≠ 0) (hc : c * w ^ 2 = -4 / 3) (ht : cos t = 4 * rp / (c * w * w * w)) (x : ℝ) :
    c * x ^ 3 + x - rp =
      c * ((x - w * cos ((2 * π - t) / 3)) * (x - w * cos (t / 3)) * (x - w * cos ((2 * π + t) / 3))) := by
  have hcn : c ≠ 0 := by rintro rfl; norm_num at hc
  have e1 : (2 * π - t) / 3 = π - (π / 3 + t / 3) := by ring
  have e3 : (2 * π + t) / 3 = π - (π / 3 - t / 3) := by ring
  have h3 : cos t = 4 * cos (t / 3) ^ 3 - 3 * cos (t / 3) := by
    rw [← cos_three_mul]; congr 1; ring
  rw [e1, e3, cos_pi_sub, cos_pi_sub, cos_add, cos_sub, cos_pi_div_three, sin_pi_div_three]
  have hs := sin_sq_add_cos_sq (t / 3)
  have hq : sqrt 3 * sqrt 3 = 3 := mul_self_sqrt (by norm_num)
  rw [eq_div_iff (by positivity), h3] at ht
  generalize cos (t / 3) = u at *
  generalize sin (t / 3) = v at *
  have e : (x - w * -(1 / 2 * u - sqrt 3 / 2 * v)) * (x - w * u) * (x - w * -(1 / 2 * u + sqrt 3 / 2 * v)) =
      x ^ 3 - 3 / 4 * w ^ 2 * x - w ^ 3 / 4 * (4 * u ^ 3 - 3 * u) := by
    have hv : v ^ 2 = 1 - u ^ 2 := by linarith
    grind
  rw [e]
  linear_combination (3 / 4) * x * hc + (1 / 4) * ht

/-- In the case of three real roots: the values computed. -/
theorem unpcdRoot_three {c rp : ℝ} (hw : ¬ 1 / (3 * c) * (1 / (3 * c)) * (1 / (3 * c)) + rp / (2 * c) * (rp / (2 * c)) ≥ 0) :
    ∃ f1 f2 f3 : ℝ, (∀ x, c * x ^ 3 + x - rp = c * ((x - f1) * (x - f2) * (x - f3))) ∧
      unpcdRoot c rp = if |f1 - rp| < |f2 - rp| then (if |f1 - rp| < |f3 - rp| then f1 else f3)
        else (if |f2 - rp| < |f3 - rp| then f2 else f3) := by
  have hneg : c < 0 := by
    by_contra hn
    exact hw (add_nonneg (by have := not_lt.1 hn; positivity) (mul_self_nonneg _))
  have hc : c ≠ 0 := hneg.ne
  unfold unpcdRoot
  simp only [if_neg hw]
  have hsq : sqrt (-3 * c) ^ 2 = -3 * c := sq_sqrt (by linarith)
  have hs0 : 0 < sqrt (-3 * c) := sqrt_pos.2 (by linarith)
  have hwc : c * (2 / sqrt (-3 * c)) ^ 2 = -4 / 3 := by
    rw [div_pow, hsq]; field_simp; norm_num
  have hw0 : 2 / sqrt (-3 * c) ≠ 0 := by positivity
  generalize 2 / sqrt (-3 * c) = w at *
  have hcc : (4 * rp / (c * w * w * w)) * (4 * rp / (c * w * w * w)) ≤ 1 := by
    have hlt := not_le.1 hw
    have e : (4 * rp / (c * w * w * w)) * (4 * rp / (c * w * w * w)) = -(27 / 4) * rp ^ 2 * c := by
      rw [div_mul_div_comm, div_eq_iff (by positivity)]
      have : c * w * w * w * (c * w * w * w) = (-4 / 3) ^ 3 / c := by
        rw [← hwc, eq_div_iff hc]; ring
      rw [this]; field_simp; ring
    rw [e]
    have e2 : 1 / (3 * c) * (1 / (3 * c)) * (1 / (3 * c)) + rp / (2 * c) * (rp / (2 * c)) =
        (4 + 27 * rp ^ 2 * c) / (108 * c ^ 3) := by field_simp; ring
    rw [e2] at hlt
    have h3 : 108 * c ^ 3 < 0 := by
      have : c ^ 3 < 0 := by rw [show c ^ 3 = c * c ^ 2 by ring]; exact mul_neg_of_neg_of_pos hneg (by positivity)
      linarith
    have : 0 < 4 + 27 * rp ^ 2 * c := by
      by_contra hn
      exact absurd hlt (not_lt.2 (div_nonneg_of_nonpos (not_lt.1 hn) h3.le))
    linarith
  have ht := (cos_atan2_of_sq (y := sqrt (1 - min (4 * rp / (c * w * w * w) * (4 * rp / (c * w * w * w))) 1))
    (x := 4 * rp / (c * w * w * w)) (by
      rw [min_eq_left hcc, sq_sqrt (by linarith)]; ring)).1
  generalize atan2 (sqrt (1 - min (4 * rp / (c * w * w * w) * (4 * rp / (c * w * w * w))) 1))
    (4 * rp / (c * w * w * w)) = t at *
  exact ⟨_, _, _, trig_roots hw0 hwc ht, rfl⟩

/-- Which of the values is taken is one of them, and is nearest to `rp`. -/
theorem nearest3 (f1 f2 f3 rp : ℝ) {m : ℝ} (hm : m = if |f1 - rp| < |f2 - rp| then (if |f1 - rp| < |f3 - rp| then f1 else f3)
        else (if |f2 - rp| < |f3 - rp| then f2 else f3)) :
    (m = f1 ∨ m = f2 ∨ m = f3) ∧ |m - rp| ≤ |f1 - rp| ∧ |m - rp| ≤ |f2 - rp| ∧ |m - rp| ≤ |f3 - rp| := by
  split_ifs at hm with h1 h2 h2 <;> subst hm <;> simp <;> constructor <;> linarith

/-- The undistorted radial distance satisfies the distortion law, whichever branch is taken. -/
theorem unpcdRoot_spec {c rp : ℝ} (hc : c ≠ 0) : c * unpcdRoot c rp ^ 3 + unpcdRoot c rp = rp := by
  by_cases hw : 1 / (3 * c) * (1 / (3 * c)) * (1 / (3 * c)) + rp / (2 * c) * (rp / (2 * c)) ≥ 0
  · unfold unpcdRoot
    simp only [if_pos hw]
    have hd := mul_self_sqrt hw
    generalize sqrt (1 / (3 * c) * (1 / (3 * c)) * (1 / (3 * c)) + rp / (2 * c) * (rp / (2 * c))) = d at *
    have h1 := ucbrt_cube (rp / (2 * c) + d)
    have h2 := ucbrt_cube (rp / (2 * c) - d)
    generalize ucbrt (rp / (2 * c) + d) = s at *
    generalize ucbrt (rp / (2 * c) - d) = t at *
    have hst : s * t = -(1 / (3 * c)) := by
      apply cube_inj
      rw [mul_pow, h1, h2]
      linear_combination -hd
    have e1 : c * (1 / (3 * c)) = 1 / 3 := by field_simp
    have e2 : c * (rp / (2 * c)) = rp / 2 := by field_simp
    linear_combination c * h1 + c * h2 + 3 * c * (s + t) * hst + 2 * e2 - 3 * (s + t) * e1
  · obtain ⟨f1, f2, f3, key, e⟩ := unpcdRoot_three (c := c) (rp := rp) hw
    obtain ⟨h, -⟩ := nearest3 f1 f2 f3 rp e
    have := key (unpcdRoot c rp)
    rcases h with h | h | h <;> rw [h] at this ⊢ <;> simp at this <;> linarith

/-- Among all solutions of the distortion law the one computed is nearest to the distorted distance, unless there
    is a double root. -/
theorem unpcdRoot_nearest {c rp : ℝ} (hc : c ≠ 0) (hd : 4 + 27 * c * rp ^ 2 ≠ 0) (g : ℝ) (hg : c * g ^ 3 + g = rp) :
    |unpcdRoot c rp - rp| ≤ |g - rp| := by
  by_cases hw : 1 / (3 * c) * (1 / (3 * c)) * (1 / (3 * c)) + rp / (2 * c) * (rp / (2 * c)) ≥ 0
  · have hs := unpcdRoot_spec (rp := rp) hc
    generalize unpcdRoot c rp = f at *
    have : f = g := by
      by_contra hne
      have h1 : c * (f ^ 2 + f * g + g ^ 2) + 1 = 0 := by
        apply mul_left_cancel₀ (sub_ne_zero.2 hne)
        linear_combination hs - hg
      have e2 : 1 / (3 * c) * (1 / (3 * c)) * (1 / (3 * c)) + rp / (2 * c) * (rp / (2 * c)) =
          (4 + 27 * c * rp ^ 2) * c ^ 3 / (108 * c ^ 6) := by field_simp; ring
      have e3 : (4 + 27 * c * rp ^ 2) * c ^ 3 = -(c ^ 6 * ((f - g) * (2 * g + f) * (2 * f + g)) ^ 2) := by
        have h2 : rp = -(c * f * g * (f + g)) := by linear_combination -hs + f * h1
        rw [h2]
        have h3 : 4 * c ^ 3 = 4 * c ^ 3 * (-(c * (f ^ 2 + f * g + g ^ 2))) ^ 3 := by
          rw [show -(c * (f ^ 2 + f * g + g ^ 2)) = 1 by linear_combination -h1]; ring
        linear_combination h3
      rw [e2, e3] at hw
      have hz : -(c ^ 6 * ((f - g) * (2 * g + f) * (2 * f + g)) ^ 2) = 0 := by
        apply le_antisymm
        · have : 0 ≤ c ^ 6 * ((f - g) * (2 * g + f) * (2 * f + g)) ^ 2 := by positivity
          linarith
        · by_contra hn
          have h6 : 0 < 108 * c ^ 6 := by positivity
          exact absurd hw (not_le.2 (div_neg_of_neg_of_pos (not_le.1 hn) h6))
      rw [← e3] at hz
      exact hd ((mul_eq_zero.1 hz).resolve_right (pow_ne_zero _ hc))
    rw [this]
  · obtain ⟨f1, f2, f3, key, e⟩ := unpcdRoot_three (c := c) (rp := rp) hw
    obtain ⟨-, h1, h2, h3⟩ := nearest3 f1 f2 f3 rp e
    have := key g
    rw [hg, sub_self] at this
    have h0 := (mul_eq_zero.1 this.symm).resolve_left hc
    rcases mul_eq_zero.1 h0 with h0 | h0
    · rcases mul_eq_zero.1 h0 with h0 | h0
      · rw [sub_eq_zero.1 h0]; exact h1
      · rw [sub_eq_zero.1 h0]; exact h2
    · rw [sub_eq_zero.1 h0]; exact h3

/-- `pcd` multiplies the point by `1 + d r²`. -/
theorem C37_pcd (d x y : ℝ) : pcd d x y = ((1 + d * (x ^ 2 + y ^ 2)) * x, (1 + d * (x ^ 2 + y ^ 2)) * y) := by
  unfold pcd; simp only [Prod.mk.injEq]; constructor <;> ring

/-- `unpcd` is a right inverse of `pcd`, for every coefficient and every point. -/
theorem C37_pcd_unpcd (d x y : ℝ) : pcd d (unpcd d x y).1 (unpcd d x y).2 = (x, y) := by
  unfold unpcd
  simp only
  split_ifs with h
  · obtain ⟨h1, h2⟩ := h
    have hs := unpcdRoot_spec (rp := sqrt (x * x + y * y)) h2
    have hr : sqrt (x * x + y * y) * sqrt (x * x + y * y) = x * x + y * y :=
      mul_self_sqrt (by nlinarith [mul_self_nonneg x, mul_self_nonneg y])
    generalize sqrt (x * x + y * y) = r at *
    generalize unpcdRoot d r = f at *
    have hx : f / r * x * (f / r * x) + f / r * y * (f / r * y) = f ^ 2 := by
      rw [show f / r * x * (f / r * x) + f / r * y * (f / r * y) = (f / r) ^ 2 * (x * x + y * y) by ring, ← hr]
      field_simp
    unfold pcd
    simp only [hx]
    have e : f / r * (1 + d * f ^ 2) = 1 := by
      rw [div_mul_eq_mul_div, div_eq_one_iff_eq h1]; linear_combination hs
    rw [Prod.mk.injEq]
    constructor
    · linear_combination x * e
    · linear_combination y * e
  · unfold pcd
    rw [not_and_or, not_not, not_not] at h
    rcases h with h | h
    · obtain ⟨rfl, rfl⟩ := sqrt_sumsq_eq_zero.1 h
      simp
    · rw [h]; simp

/-- Among all points that the distortion maps to the given one, `unpcd` returns the one nearest to it, as
    documented - unless two of the three roots of the cubic coincide. -/
theorem C37_nearest (d x y u v : ℝ) (h : pcd d u v = (x, y)) (hd : 4 + 27 * d * (x ^ 2 + y ^ 2) ≠ 0) :
    ((unpcd d x y).1 - x) ^ 2 + ((unpcd d x y).2 - y) ^ 2 ≤ (u - x) ^ 2 + (v - y) ^ 2 := by
  unfold unpcd
  simp only
  split_ifs with hh
  · obtain ⟨h1, h2⟩ := hh
    have hr : sqrt (x * x + y * y) ^ 2 = x ^ 2 + y ^ 2 := by
      rw [sq_sqrt (by nlinarith [mul_self_nonneg x, mul_self_nonneg y])]; ring
    have hr0 := sqrt_nonneg (x * x + y * y)
    generalize sqrt (x * x + y * y) = r at *
    rw [C37_pcd, Prod.mk.injEq] at h
    obtain ⟨hx, hy⟩ := h
    -- the signed distance of (u, v) along (x, y)
    have hg0 : 1 + d * (u ^ 2 + v ^ 2) ≠ 0 := by
      intro h0
      rw [h0] at hx hy
      rw [← hx, ← hy] at hr
      apply h1
      have : r ^ 2 = 0 := by rw [hr]; ring
      exact pow_eq_zero_iff (by norm_num) |>.1 this
    have hu : u = r / (1 + d * (u ^ 2 + v ^ 2)) / r * x := by
      rw [← hx]; field_simp
    have hv : v = r / (1 + d * (u ^ 2 + v ^ 2)) / r * y := by
      rw [← hy]; field_simp
    set g := r / (1 + d * (u ^ 2 + v ^ 2)) with hgdef
    have hgg : g ^ 2 = u ^ 2 + v ^ 2 := by
      rw [hu, hv]
      have : (g / r * x) ^ 2 + (g / r * y) ^ 2 = (g / r) ^ 2 * (x ^ 2 + y ^ 2) := by ring
      rw [this, ← hr]; field_simp
    have hgs : d * g ^ 3 + g = r := by
      have : g * (1 + d * (u ^ 2 + v ^ 2)) = r := by rw [hgdef]; field_simp
      rw [← hgg] at this
      linear_combination this
    have hn := unpcdRoot_nearest h2 (by rw [hr]; exact hd) g hgs
    generalize unpcdRoot d r = f at *
    have key : ∀ k : ℝ, (k / r * x - x) ^ 2 + (k / r * y - y) ^ 2 = (k - r) ^ 2 := by
      intro k
      have : (k / r * x - x) ^ 2 + (k / r * y - y) ^ 2 = (k / r - 1) ^ 2 * (x ^ 2 + y ^ 2) := by ring
      rw [this, ← hr]; field_simp
    rw [key, hu, hv, key]
    exact sq_le_sq.2 hn
  · simp only [sub_self]; nlinarith [sq_nonneg (u - x), sq_nonneg (v - y)]

/-- `unpcd` undoes `pcd` where the distorted distance is still increasing: everywhere for coefficients that are not
    negative, and inside the turning point for negative ones. -/
theorem C37_unpcd_pcd (d x y : ℝ) (h : -1 < 3 * d * (x ^ 2 + y ^ 2)) :
    unpcd d (pcd d x y).1 (pcd d x y).2 = (x, y) := by
  have hg : 0 < 1 + d * (x ^ 2 + y ^ 2) := by linarith
  have hr : sqrt (x ^ 2 + y ^ 2) ^ 2 = x ^ 2 + y ^ 2 := sq_sqrt (by positivity)
  have hr0 := sqrt_nonneg (x ^ 2 + y ^ 2)
  have hrz : sqrt (x ^ 2 + y ^ 2) = 0 → x = 0 ∧ y = 0 := fun e =>
    sqrt_sumsq_eq_zero.1 (by rw [← sq, ← sq]; exact e)
  rw [C37_pcd]
  unfold unpcd
  have e : sqrt ((1 + d * (x ^ 2 + y ^ 2)) * x * ((1 + d * (x ^ 2 + y ^ 2)) * x) +
      (1 + d * (x ^ 2 + y ^ 2)) * y * ((1 + d * (x ^ 2 + y ^ 2)) * y)) =
      (1 + d * (x ^ 2 + y ^ 2)) * sqrt (x ^ 2 + y ^ 2) := by
    rw [show (1 + d * (x ^ 2 + y ^ 2)) * x * ((1 + d * (x ^ 2 + y ^ 2)) * x) +
      (1 + d * (x ^ 2 + y ^ 2)) * y * ((1 + d * (x ^ 2 + y ^ 2)) * y) =
      (1 + d * (x ^ 2 + y ^ 2)) ^ 2 * (x ^ 2 + y ^ 2) by ring, sqrt_mul (by positivity), sqrt_sq hg.le]
  simp only [e]
  generalize sqrt (x ^ 2 + y ^ 2) = r at *
  rw [← hr] at h hg e ⊢
  split_ifs with hh
  · obtain ⟨h1, h2⟩ := hh
    have hrp : 0 < r := lt_of_le_of_ne hr0 (by rintro rfl; simp at h1)
    have hroot : unpcdRoot d ((1 + d * r ^ 2) * r) = r := by
      have hs := unpcdRoot_spec (rp := (1 + d * r ^ 2) * r) h2
      have hdisc : 4 + 27 * d * ((1 + d * r ^ 2) * r) ^ 2 ≠ 0 := by
        have : 4 + 27 * d * ((1 + d * r ^ 2) * r) ^ 2 = (1 + 3 * d * r ^ 2) ^ 2 * (4 + 3 * d * r ^ 2) := by ring
        rw [this]
        have a1 : 0 < 1 + 3 * d * r ^ 2 := by linarith
        have a2 : 0 < 4 + 3 * d * r ^ 2 := by linarith
        positivity
      have hn := unpcdRoot_nearest h2 hdisc r (by ring)
      generalize unpcdRoot d ((1 + d * r ^ 2) * r) = f at *
      by_contra hne
      have h3 : d * (f ^ 2 + f * r + r ^ 2) + 1 = 0 := by
        apply mul_left_cancel₀ (sub_ne_zero.2 hne)
        linear_combination hs
      have e1 : |f - (1 + d * r ^ 2) * r| = |d| * |f| ^ 3 := by
        rw [← hs, show f - (d * f ^ 3 + f) = -(d * f ^ 3) by ring, abs_neg, abs_mul, abs_pow]
      have e2 : |r - (1 + d * r ^ 2) * r| = |d| * r ^ 3 := by
        rw [show r - (1 + d * r ^ 2) * r = -(d * r ^ 3) by ring, abs_neg, abs_mul, abs_pow, abs_of_pos hrp]
      rw [e1, e2] at hn
      have h4 : |f| ≤ r := by
        have := le_of_mul_le_mul_left hn (abs_pos.2 h2)
        exact le_of_pow_le_pow_left₀ (by norm_num) hr0 this
      have h5 := abs_le.1 h4
      have h6 : 0 ≤ f ^ 2 + f * r + r ^ 2 := by nlinarith [sq_nonneg (f + r), sq_nonneg f, sq_nonneg r]
      have h7 : f ^ 2 + f * r + r ^ 2 ≤ 3 * r ^ 2 := by nlinarith
      have h8 : d < 0 := by
        by_contra hn; have := not_lt.1 hn; nlinarith
      nlinarith
    rw [hroot]
    rw [Prod.mk.injEq]
    have hgn := hg.ne'
    generalize 1 + d * r ^ 2 = g at *
    constructor <;> field_simp
  · rw [not_and_or, not_not, not_not] at hh
    rcases hh with hh | hh
    · obtain ⟨rfl, rfl⟩ := hrz ((mul_eq_zero.1 hh).resolve_left hg.ne')
      simp
    · rw [hh]; simp

/-- At a double root the documented choice fails: with coefficient -1/3 the point (1, 0) is distorted to (2/3, 0), but
    `unpcd` returns (-2, 0). -/
theorem C37_double_root : pcd (-1 / 3) 1 0 = (2 / 3, 0) ∧ unpcd (-1 / 3) (2 / 3) 0 = (-2, 0) := by
  constructor
  · rw [C37_pcd]; norm_num
  · have e : sqrt ((2 / 3 : ℝ) * (2 / 3) + 0 * 0) = 2 / 3 := by
      rw [show (2 / 3 : ℝ) * (2 / 3) + 0 * 0 = (2 / 3) ^ 2 by norm_num, sqrt_sq (by norm_num)]
    have hroot : unpcdRoot (-1 / 3) (2 / 3) = -2 := by
      unfold unpcdRoot
      norm_num
      have : ucbrt (-1) = -1 := cube_inj (by rw [ucbrt_cube]; norm_num)
      rw [this]; norm_num
    unfold unpcd
    simp only [e, hroot]
    norm_num

example : (-1 : ℝ) < 3 * (147.069) * (0.1 ^ 2 + 0.2 ^ 2) := by norm_num
example : (-1 : ℝ) < 3 * (-0.3333) * (0.1 ^ 2 + 0.2 ^ 2) := by norm_num
example : pcd (-1 / 3) 3 0 = (-6, 0) ∧ (4 : ℝ) + 27 * (-1 / 3) * ((-6) ^ 2 + 0 ^ 2) ≠ 0 := by
  rw [C37_pcd]; norm_num

/-! ### Linear models -/

/-- `invf` succeeds exactly if the linear part is regular; otherwise the output is untouched. -/
theorem C38_status (m o : FitCoeffs) :
    ((invf m o).1 = true ↔ m.b * m.f - m.c * m.e ≠ 0) ∧ ((invf m o).1 = false → (invf m o).2 = o) := by
  unfold invf
  by_cases h : m.b * m.f - m.c * m.e = 0 <;> simp [h]

/-- The inverted model undoes the model, in both orders. -/
theorem C38_inverse (m o : FitCoeffs) (h : (invf m o).1 = true) (x y : ℝ) :
    xy2xy (xy2xy x y m).1 (xy2xy x y m).2 (invf m o).2 = (x, y) ∧
    xy2xy (xy2xy x y (invf m o).2).1 (xy2xy x y (invf m o).2).2 m = (x, y) := by
  have hd := (C38_status m o).1.1 h
  unfold invf xy2xy
  simp only [if_pos hd]
  generalize hk : m.b * m.f - m.c * m.e = k at *
  constructor <;> rw [Prod.mk.injEq] <;> constructor <;> field_simp <;> rw [← hk] <;> ring

/-- Inverting twice succeeds and gives the original model. -/
theorem C38_twice (m o o' : FitCoeffs) (h : (invf m o).1 = true) : invf (invf m o).2 o' = (true, m) := by
  have hd := (C38_status m o).1.1 h
  have e : (invf m o).2.b * (invf m o).2.f - (invf m o).2.c * (invf m o).2.e = 1 / (m.b * m.f - m.c * m.e) := by
    unfold invf
    simp only [if_pos hd]
    generalize hk : m.b * m.f - m.c * m.e = k at *
    field_simp; rw [← hk]; ring
  have hd' : (invf m o).2.b * (invf m o).2.f - (invf m o).2.c * (invf m o).2.e ≠ 0 := by
    rw [e]; exact one_div_ne_zero hd
  rw [show invf (invf m o).2 o' = (true, (invf (invf m o).2 o').2) from
    Prod.ext ((C38_status _ _).1.2 hd') rfl]
  congr 1
  have E : (invf m o).2 = ⟨(m.c * m.d - m.a * m.f) / (m.b * m.f - m.c * m.e), m.f / (m.b * m.f - m.c * m.e),
      -m.c / (m.b * m.f - m.c * m.e), (m.a * m.e - m.b * m.d) / (m.b * m.f - m.c * m.e),
      -m.e / (m.b * m.f - m.c * m.e), m.b / (m.b * m.f - m.c * m.e)⟩ := by
    unfold invf; simp only [if_pos hd]
  generalize invf m o = M at *
  have E' : (invf M.2 o').2 = ⟨(M.2.c * M.2.d - M.2.a * M.2.f) / (M.2.b * M.2.f - M.2.c * M.2.e),
      M.2.f / (M.2.b * M.2.f - M.2.c * M.2.e), -M.2.c / (M.2.b * M.2.f - M.2.c * M.2.e),
      (M.2.a * M.2.e - M.2.b * M.2.d) / (M.2.b * M.2.f - M.2.c * M.2.e),
      -M.2.e / (M.2.b * M.2.f - M.2.c * M.2.e), M.2.b / (M.2.b * M.2.f - M.2.c * M.2.e)⟩ := by
    unfold invf; simp only [if_pos hd']
  rw [E', e, E]
  generalize hk : m.b * m.f - m.c * m.e = k at *
  ext <;> simp only <;> field_simp <;> rw [← hk] <;> ring

example : (invf ⟨1, 2, 3, 4, 5, 6⟩ ⟨0, 0, 0, 0, 0, 0⟩).1 = true := by
  rw [(C38_status _ _).1]; norm_num

/-- The four steps of the decomposition, as documented in src/dcmpf.cc:30-53 (with the evident correction of the
    last line: `-sin(orient) * x'''`). -/
noncomputable def recompose (D : Decomposition) (x1 y1 : ℝ) : ℝ × ℝ :=
  let x' := D.xz + x1
  let y' := D.yz + y1
  let x'' := D.xs * x'
  let y'' := D.ys * y'
  let x''' := cos (D.perp / 2) * x'' + sin (D.perp / 2) * y''
  let y''' := sin (D.perp / 2) * x'' + cos (D.perp / 2) * y''
  (cos D.orient * x''' + sin D.orient * y''', -sin D.orient * x''' + cos D.orient * y''')

/-- The linear part of the recomposition. -/
theorem dcmpf_linear (m : FitCoeffs) (hbe : m.b ≠ 0 ∨ m.e ≠ 0) (hcf : m.c ≠ 0 ∨ m.f ≠ 0) :
    let D := dcmpf m
    m.b = D.xs * (cos D.orient * cos (D.perp / 2) + sin D.orient * sin (D.perp / 2)) ∧
    m.c = D.ys * (cos D.orient * sin (D.perp / 2) + sin D.orient * cos (D.perp / 2)) ∧
    m.e = D.xs * (cos D.orient * sin (D.perp / 2) - sin D.orient * cos (D.perp / 2)) ∧
    m.f = D.ys * (cos D.orient * cos (D.perp / 2) - sin D.orient * sin (D.perp / 2)) ∧
    |D.perp| ≤ π / 2 ∧ D.ys = sqrt (m.c * m.c + m.f * m.f) ∧
    D.xs = (if m.b * m.f - m.c * m.e ≥ 0 then 1 else -1) * sqrt (m.b * m.b + m.e * m.e) := by
  intro D
  set pos : Prop := m.b * m.f - m.c * m.e ≥ 0 with hpos
  set sg : ℝ := if pos then 1 else -1 with hsg
  have hsg2 : sg * sg = 1 := by rw [hsg]; split_ifs <;> norm_num
  set b := if pos then m.b else -m.b with hb
  set e := if pos then m.e else -m.e with he
  have hb' : b = sg * m.b := by rw [hb, hsg]; split_ifs <;> ring
  have he' : e = sg * m.e := by rw [he, hsg]; split_ifs <;> ring
  have hrb0 : 0 < sqrt (m.b * m.b + m.e * m.e) := by
    rw [sqrt_pos]
    rcases hbe with h | h
    · nlinarith [mul_self_pos.2 h, mul_self_nonneg m.e]
    · nlinarith [mul_self_pos.2 h, mul_self_nonneg m.b]
  have hrc0 : 0 < sqrt (m.c * m.c + m.f * m.f) := by
    rw [sqrt_pos]
    rcases hcf with h | h
    · nlinarith [mul_self_pos.2 h, mul_self_nonneg m.f]
    · nlinarith [mul_self_pos.2 h, mul_self_nonneg m.c]
  have hbe2 : e ≠ 0 ∨ b ≠ 0 := by
    rw [hb, he]
    split_ifs <;> simpa [or_comm] using hbe
  have hdet : 0 ≤ b * m.f - m.c * e := by
    rw [hb, he]
    split_ifs with h
    · exact h
    · have := not_le.1 h; linarith
  have pc1 := polar_cos m.c m.f
  have ps1 := polar_sin m.c m.f
  have pc2 := polar_cos e b
  have ps2 := polar_sin e b
  rw [show m.f * m.f + m.c * m.c = m.c * m.c + m.f * m.f by ring] at pc1 ps1
  rw [show b * b + e * e = m.b * m.b + m.e * m.e by rw [hb', he']; linear_combination (m.b * m.b + m.e * m.e) * hsg2]
    at pc2 ps2
  have hDp : D.perp = drange (atan2 m.c m.f + atan2 e b) := by
    show drange ((if m.c ≠ 0 ∨ m.f ≠ 0 then _ else _) + (if e ≠ 0 ∨ b ≠ 0 then _ else _)) = _
    rw [if_pos hcf, if_pos hbe2]
  have hDo : D.orient = atan2 (m.c * sqrt (m.b * m.b + m.e * m.e) - e * sqrt (m.c * m.c + m.f * m.f))
      (b * sqrt (m.c * m.c + m.f * m.f) + m.f * sqrt (m.b * m.b + m.e * m.e)) := by
    show (if m.c * sqrt (m.b * m.b + m.e * m.e) - e * sqrt (m.c * m.c + m.f * m.f) ≠ 0 ∨
      b * sqrt (m.c * m.c + m.f * m.f) + m.f * sqrt (m.b * m.b + m.e * m.e) ≠ 0 then
      atan2 (m.c * sqrt (m.b * m.b + m.e * m.e) - e * sqrt (m.c * m.c + m.f * m.f))
        (b * sqrt (m.c * m.c + m.f * m.f) + m.f * sqrt (m.b * m.b + m.e * m.e)) else 0) = _
    generalize m.c * sqrt (m.b * m.b + m.e * m.e) - e * sqrt (m.c * m.c + m.f * m.f) = X
    generalize b * sqrt (m.c * m.c + m.f * m.f) + m.f * sqrt (m.b * m.b + m.e * m.e) = Y
    by_cases h : X ≠ 0 ∨ Y ≠ 0
    · rw [if_pos h]
    · rw [if_neg h]
      rw [not_or, not_not, not_not] at h
      rw [h.1, h.2, atan2_zero_zero]
  have hDy : D.ys = sqrt (m.c * m.c + m.f * m.f) := rfl
  have hDx : D.xs = sg * sqrt (m.b * m.b + m.e * m.e) := by
    show (if pos then _ else _) = _
    rw [hsg]; split_ifs <;> ring
  have hsa := sameAngle_drange (atan2 m.c m.f + atan2 e b)
  obtain ⟨r1, r2, -⟩ := C15_drange (atan2 m.c m.f + atan2 e b)
  have hcp := hsa.cos
  have hsp := hsa.sin
  rw [← hDp] at hcp hsp r1 r2
  rw [hDx, hDy, hDo]
  generalize D.perp = p at *
  generalize sqrt (m.b * m.b + m.e * m.e) = rb at *
  generalize sqrt (m.c * m.c + m.f * m.f) = rc at *
  generalize atan2 m.c m.f = p1 at *
  generalize atan2 e b = p2 at *
  rw [cos_add] at hcp
  rw [sin_add] at hsp
  have hp0 : 0 ≤ cos p := by
    have : rb * rc * cos p = b * m.f - m.c * e := by
      rw [hcp]; linear_combination rc * cos p1 * pc2 + b * pc1 - rc * sin p1 * ps2 - e * ps1
    by_contra hn
    have := mul_neg_of_pos_of_neg (mul_pos hrb0 hrc0) (not_le.1 hn)
    linarith
  have hpr : |p| ≤ π / 2 := by
    rw [abs_le]
    constructor
    · by_contra hn
      have : cos p < 0 := by
        rw [← cos_neg]; exact cos_neg_of_pi_div_two_lt_of_lt (by linarith) (by linarith [pi_pos])
      linarith
    · by_contra hn
      have : cos p < 0 := cos_neg_of_pi_div_two_lt_of_lt (by linarith) (by linarith [pi_pos])
      linarith
  have hch : 0 < cos (p / 2) := by
    apply cos_pos_of_abs
    rw [abs_div, abs_of_pos (by norm_num : (0 : ℝ) < 2)]
    linarith [pi_pos]
  have hc2 : cos p = 2 * cos (p / 2) ^ 2 - 1 := by rw [← cos_two_mul]; congr 1; ring
  have hs2 : sin p = 2 * sin (p / 2) * cos (p / 2) := by rw [← sin_two_mul]; congr 1; ring
  have hq := sin_sq_add_cos_sq (p / 2)
  have hq1 := sin_sq_add_cos_sq p1
  have hq2 := sin_sq_add_cos_sq p2
  have hm : (b * rc + m.f * rb) * (b * rc + m.f * rb) + (m.c * rb - e * rc) * (m.c * rb - e * rc) =
      (2 * rb * rc * cos (p / 2)) ^ 2 := by
    rw [← pc1, ← ps1, ← pc2, ← ps2]
    have : (2 * rb * rc * cos (p / 2)) ^ 2 = 2 * (rb * rc) ^ 2 * (1 + cos p) := by rw [hc2]; ring
    rw [this, hcp]
    linear_combination (rb * rc) ^ 2 * hq1 + (rb * rc) ^ 2 * hq2
  have oc := polar_cos (m.c * rb - e * rc) (b * rc + m.f * rb)
  have os := polar_sin (m.c * rb - e * rc) (b * rc + m.f * rb)
  rw [hm, sqrt_sq (by positivity)] at oc os
  generalize atan2 (m.c * rb - e * rc) (b * rc + m.f * rb) = o at *
  have oc' : 2 * cos (p / 2) * cos o = cos p1 + cos p2 := by
    apply mul_left_cancel₀ (mul_pos hrb0 hrc0).ne'
    linear_combination oc - rb * pc1 - rc * pc2
  have os' : 2 * cos (p / 2) * sin o = sin p1 - sin p2 := by
    apply mul_left_cancel₀ (mul_pos hrb0 hrc0).ne'
    linear_combination os - rb * ps1 + rc * ps2
  -- p2 = p - p1
  have k2c : cos p2 = cos p * cos p1 + sin p * sin p1 := by
    rw [hcp, hsp]; linear_combination -cos p2 * hq1
  have k2s : sin p2 = sin p * cos p1 - cos p * sin p1 := by
    rw [hcp, hsp]; linear_combination -sin p2 * hq1
  have k1 : cos o * cos (p / 2) - sin o * sin (p / 2) = cos p1 := by
    apply mul_left_cancel₀ (mul_pos two_pos hch).ne'
    rw [hc2, hs2] at k2c k2s
    linear_combination cos (p / 2) * oc' - sin (p / 2) * os' + cos (p / 2) * k2c + sin (p / 2) * k2s +
      cos p1 * 2 * cos (p / 2) * hq
  have k3 : cos o * sin (p / 2) + sin o * cos (p / 2) = sin p1 := by
    apply mul_left_cancel₀ (mul_pos two_pos hch).ne'
    rw [hc2, hs2] at k2c k2s
    linear_combination sin (p / 2) * oc' + cos (p / 2) * os' + sin (p / 2) * k2c - cos (p / 2) * k2s +
      sin p1 * 2 * cos (p / 2) * hq
  have k4 : cos o * cos (p / 2) + sin o * sin (p / 2) = cos p2 := by
    rw [k2c, hc2, hs2, ← k1, ← k3]
    linear_combination -(2 * cos (p / 2) * cos o) * hq
  have k5 : cos o * sin (p / 2) - sin o * cos (p / 2) = sin p2 := by
    rw [k2s, hc2, hs2, ← k1, ← k3]
    linear_combination (2 * cos (p / 2) * sin o) * hq
  rw [k1, k3, k4, k5]
  refine ⟨?_, ps1.symm, ?_, pc1.symm, hpr, rfl, rfl⟩
  · linear_combination -sg * pc2 - sg * hb' - m.b * hsg2
  · linear_combination -sg * ps2 - sg * he' - m.e * hsg2

/-- For every regular model, the four documented steps with the parameters returned by `dcmpf` are the model. -/
theorem C39_recompose (m : FitCoeffs) (h : m.b * m.f - m.c * m.e ≠ 0) (x y : ℝ) :
    recompose (dcmpf m) x y = xy2xy x y m := by
  have hbe : m.b ≠ 0 ∨ m.e ≠ 0 := by
    by_contra hn
    rw [not_or, not_not, not_not] at hn
    apply h; rw [hn.1, hn.2]; ring
  have hcf : m.c ≠ 0 ∨ m.f ≠ 0 := by
    by_contra hn
    rw [not_or, not_not, not_not] at hn
    apply h; rw [hn.1, hn.2]; ring
  obtain ⟨e1, e2, e3, e4, -⟩ := dcmpf_linear m hbe hcf
  set D := dcmpf m with hD
  have hdet : D.xs * D.ys * (cos (D.perp / 2) + sin (D.perp / 2)) * (cos (D.perp / 2) - sin (D.perp / 2)) =
      m.b * m.f - m.c * m.e := by
    rw [e1, e2, e3, e4]
    linear_combination -(D.xs * D.ys * (cos (D.perp / 2) ^ 2 - sin (D.perp / 2) ^ 2)) * sin_sq_add_cos_sq D.orient
  have hX : D.xz = (m.f * m.a - m.c * m.d) / (m.b * m.f - m.c * m.e) := by
    show (if |D.xs * D.ys * (cos (D.perp / 2) + sin (D.perp / 2)) * (cos (D.perp / 2) - sin (D.perp / 2))| > 0
      then D.ys * (m.a * (cos (D.perp / 2) * cos D.orient - sin (D.perp / 2) * sin D.orient) -
        m.d * (cos (D.perp / 2) * sin D.orient + sin (D.perp / 2) * cos D.orient)) /
        (D.xs * D.ys * (cos (D.perp / 2) + sin (D.perp / 2)) * (cos (D.perp / 2) - sin (D.perp / 2))) else 0) = _
    rw [hdet, if_pos (abs_pos.2 h)]
    congr 1
    linear_combination -m.a * e4 + m.d * e2
  have hY : D.yz = (m.b * m.d - m.e * m.a) / (m.b * m.f - m.c * m.e) := by
    show (if |D.xs * D.ys * (cos (D.perp / 2) + sin (D.perp / 2)) * (cos (D.perp / 2) - sin (D.perp / 2))| > 0
      then D.xs * (m.a * (cos (D.perp / 2) * sin D.orient - sin (D.perp / 2) * cos D.orient) +
        m.d * (cos (D.perp / 2) * cos D.orient + sin (D.perp / 2) * sin D.orient)) /
        (D.xs * D.ys * (cos (D.perp / 2) + sin (D.perp / 2)) * (cos (D.perp / 2) - sin (D.perp / 2))) else 0) = _
    rw [hdet, if_pos (abs_pos.2 h)]
    congr 1
    linear_combination m.a * e3 - m.d * e1
  have kx : m.b * D.xz + m.c * D.yz = m.a := by
    rw [hX, hY, mul_div_assoc', mul_div_assoc', ← add_div, div_eq_iff h]; ring
  have ky : m.e * D.xz + m.f * D.yz = m.d := by
    rw [hX, hY, mul_div_assoc', mul_div_assoc', ← add_div, div_eq_iff h]; ring
  unfold recompose xy2xy
  rw [Prod.mk.injEq]
  constructor
  · linear_combination kx - (D.xz + x) * e1 - (D.yz + y) * e2
  · linear_combination ky - (D.xz + x) * e3 - (D.yz + y) * e4

/-- The parameters are in the documented ranges: the Y scale is positive and the X scale has the sign of the
    determinant; the non-perpendicularity is at most 90 degrees, the orientation in (-π, π]. -/
theorem C39_ranges (m : FitCoeffs) (h : m.b * m.f - m.c * m.e ≠ 0) :
    0 < (dcmpf m).ys ∧ 0 < (dcmpf m).xs * (m.b * m.f - m.c * m.e) ∧ |(dcmpf m).perp| < π / 2 ∧
    -π < (dcmpf m).orient ∧ (dcmpf m).orient ≤ π := by
  have hbe : m.b ≠ 0 ∨ m.e ≠ 0 := by
    by_contra hn
    rw [not_or, not_not, not_not] at hn
    apply h; rw [hn.1, hn.2]; ring
  have hcf : m.c ≠ 0 ∨ m.f ≠ 0 := by
    by_contra hn
    rw [not_or, not_not, not_not] at hn
    apply h; rw [hn.1, hn.2]; ring
  obtain ⟨e1, e2, e3, e4, e5, e6, e7⟩ := dcmpf_linear m hbe hcf
  have hrb0 : 0 < sqrt (m.b * m.b + m.e * m.e) := by
    rw [sqrt_pos]
    rcases hbe with h | h
    · nlinarith [mul_self_pos.2 h, mul_self_nonneg m.e]
    · nlinarith [mul_self_pos.2 h, mul_self_nonneg m.b]
  have hrc0 : 0 < sqrt (m.c * m.c + m.f * m.f) := by
    rw [sqrt_pos]
    rcases hcf with h | h
    · nlinarith [mul_self_pos.2 h, mul_self_nonneg m.f]
    · nlinarith [mul_self_pos.2 h, mul_self_nonneg m.c]
  refine ⟨by rw [e6]; exact hrc0, ?_, ?_, ?_, ?_⟩
  · rw [e7]
    split_ifs with hp
    · have : 0 < m.b * m.f - m.c * m.e := lt_of_le_of_ne hp h.symm
      rw [one_mul]; exact mul_pos hrb0 this
    · have := not_le.1 hp
      rw [neg_one_mul, neg_mul, ← mul_neg]; exact mul_pos hrb0 (by linarith)
  · refine lt_of_le_of_ne e5 fun hp => h ?_
    have hc : cos (dcmpf m).perp = 0 := by rw [← cos_abs, hp, cos_pi_div_two]
    have h2 : cos (dcmpf m).perp = cos ((dcmpf m).perp / 2) ^ 2 - sin ((dcmpf m).perp / 2) ^ 2 := by
      rw [← cos_two_mul']; congr 1; ring
    rw [e1, e2, e3, e4]
    rw [h2] at hc
    linear_combination (dcmpf m).xs * (dcmpf m).ys * (sin (dcmpf m).orient ^ 2 + cos (dcmpf m).orient ^ 2) * hc
  · unfold dcmpf
    simp only
    split_ifs <;> first | exact (atan2_mem _ _).1 | linarith [pi_pos]
  · unfold dcmpf
    simp only
    split_ifs <;> first | exact (atan2_mem _ _).2 | linarith [pi_pos]

/-- For a model that ignores one of the coordinates the decomposition is wrong: with b = e = 0, c = 1, f = 0 it does not
    recompose. -/
theorem C39_degenerate : recompose (dcmpf ⟨0, 0, 1, 0, 0, 0⟩) 0 1 ≠ xy2xy 0 1 ⟨0, 0, 1, 0, 0, 0⟩ := by
  have h1 : atan2 1 0 = π / 2 := atan2_unique one_pos (by linarith [pi_pos]) (by linarith [pi_pos]) (by simp) (by simp)
  have h2 : drange (π / 2) = π / 2 := (C15_drange_laws _).1 (by
    rw [abs_of_pos (by positivity)]; linarith [pi_pos])
  have e : dcmpf ⟨0, 0, 1, 0, 0, 0⟩ = ⟨0, 0, 0, 1, π / 2, 0⟩ := by
    unfold dcmpf
    simp [h1, h2]
  rw [e]
  unfold recompose xy2xy
  intro h
  have := congrArg Prod.fst h
  simp at this
  have h4 : sin (π / 2 / 2) = sqrt 2 / 2 := by
    rw [show π / 2 / 2 = π / 4 by ring, sin_pi_div_four]
  rw [h4] at this
  have hs : sqrt 2 * sqrt 2 = 2 := mul_self_sqrt (by norm_num)
  nlinarith

example : (2 : ℝ) * 7 - 3 * 5 ≠ 0 := by norm_num

end Sla.Props
