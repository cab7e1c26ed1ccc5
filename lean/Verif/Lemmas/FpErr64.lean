import Verif.Lemmas.FpErr
import Verif.Lemmas.EulerMotion
import Verif.Lemmas.EclipticMotion
import Verif.Model.FpCoords

/-
Running error bounds for double precision, and the angles of the precession and ecliptic matrices computed in double precision.
-/
namespace Sla.Fp

/-- A rounding with the accuracy of double precision. -/
def Dbl (R : ℝ → ℝ) : Prop := ∀ x, |R x - x| ≤ 1.2e-16 * |x| + 1e-200

theorem Rounding.dbl (D : Rounding binary64) : Dbl D := by
  intro x
  have h := D.error_le x
  have e1 : (2 : ℝ) ^ (-(binary64.prec : ℤ)) = 1 / 2 ^ 53 := by norm_num [binary64]
  have e2 : (2 : ℝ) ^ (binary64.emin - 1) ≤ 1e-200 := by
    calc (2 : ℝ) ^ (binary64.emin - 1) ≤ 2 ^ (-1000 : ℤ) := two_zpow_le (by norm_num [binary64])
      _ = ((2 : ℝ) ^ (-10 : ℤ)) ^ 100 := by rw [← zpow_natCast, ← zpow_mul]; norm_num
      _ ≤ (1e-2 : ℝ) ^ 100 := by gcongr; norm_num
      _ = 1e-200 := by norm_num
  rw [e1, abs_sub_comm] at h
  refine h.trans (add_le_add (mul_le_mul_of_nonneg_right (by norm_num) (abs_nonneg x)) e2)

namespace Dbl
variable {R : ℝ → ℝ} {a b x y e f g B X Y : ℝ}

theorem round (hR : Dbl R) (ha : |a - x| ≤ e) (hB : |x| ≤ B) (hg : e + 1.2e-16 * (B + e) + 1e-200 ≤ g) : |R a - x| ≤ g := by
  have h := hR a
  have h1 : |a| ≤ B + e := by
    have := abs_add_le x (a - x)
    rw [add_sub_cancel] at this
    linarith
  have h2 : |R a - x| ≤ |R a - a| + |a - x| := by
    have := abs_add_le (R a - a) (a - x)
    rwa [sub_add_sub_cancel] at this
  have h3 : (1.2e-16 : ℝ) * |a| ≤ 1.2e-16 * (B + e) := mul_le_mul_of_nonneg_left h1 (by norm_num)
  linarith

theorem lit (hR : Dbl R) (hB : |x| ≤ B) (hg : 1.2e-16 * B + 1e-200 ≤ g) : |R x - x| ≤ g :=
  hR.round (e := 0) (by simp) hB (by simpa using hg)

theorem add (hR : Dbl R) (ha : |a - x| ≤ e) (hb : |b - y| ≤ f) (hB : |x + y| ≤ B)
    (hg : e + f + 1.2e-16 * (B + (e + f)) + 1e-200 ≤ g) : |R (a + b) - (x + y)| ≤ g := by
  refine hR.round (e := e + f) ?_ hB hg
  rw [add_sub_add_comm]
  exact (abs_add_le _ _).trans (add_le_add ha hb)

theorem sub (hR : Dbl R) (ha : |a - x| ≤ e) (hb : |b - y| ≤ f) (hB : |x - y| ≤ B)
    (hg : e + f + 1.2e-16 * (B + (e + f)) + 1e-200 ≤ g) : |R (a - b) - (x - y)| ≤ g := by
  refine hR.round (e := e + f) ?_ hB hg
  have : a - b - (x - y) = (a - x) - (b - y) := by ring
  rw [this]
  exact (abs_sub _ _).trans (add_le_add ha hb)

theorem mul_err (ha : |a - x| ≤ e) (hb : |b - y| ≤ f) (hX : |x| ≤ X) (hY : |y| ≤ Y) :
    |a * b - x * y| ≤ X * f + Y * e + e * f := by
  have h : a * b - x * y = x * (b - y) + y * (a - x) + (a - x) * (b - y) := by ring
  rw [h]
  refine (abs_add_le _ _).trans (add_le_add ((abs_add_le _ _).trans (add_le_add ?_ ?_)) ?_) <;> rw [abs_mul]
  · exact mul_le_mul hX hb (abs_nonneg _) ((abs_nonneg _).trans hX)
  · exact mul_le_mul hY ha (abs_nonneg _) ((abs_nonneg _).trans hY)
  · exact mul_le_mul ha hb (abs_nonneg _) ((abs_nonneg _).trans ha)

theorem mul (hR : Dbl R) (ha : |a - x| ≤ e) (hb : |b - y| ≤ f) (hX : |x| ≤ X) (hY : |y| ≤ Y)
    (hg : X * f + Y * e + e * f + 1.2e-16 * (X * Y + (X * f + Y * e + e * f)) + 1e-200 ≤ g) : |R (a * b) - x * y| ≤ g := by
  refine hR.round (e := X * f + Y * e + e * f) (mul_err ha hb hX hY) ?_ hg
  rw [abs_mul]
  exact mul_le_mul hX hY (abs_nonneg _) ((abs_nonneg _).trans hX)

/-- Division by a number of magnitude at least `m`, with quotient at most `Q`. -/
theorem div (hR : Dbl R) {m Q E : ℝ} (ha : |a - x| ≤ e) (hb : |b - y| ≤ f) (hm : m ≤ |y|) (hmf : f < m) (hQ : |x / y| ≤ Q)
    (hE : e + Q * f ≤ E * (m - f)) (hg : E + 1.2e-16 * (Q + E) + 1e-200 ≤ g) : |R (a / b) - x / y| ≤ g := by
  refine hR.round (e := E) ?_ hQ hg
  have hf0 : 0 ≤ f := (abs_nonneg _).trans hb
  have hy : y ≠ 0 := by rintro rfl; rw [abs_zero] at hm; linarith
  have hb1 : m - f ≤ |b| := by
    have := abs_sub_abs_le_abs_sub y b
    rw [abs_sub_comm y b] at this; linarith
  have hbp : 0 < |b| := by linarith
  have hb0 : b ≠ 0 := abs_pos.1 hbp
  have h : a / b - x / y = ((a - x) - x / y * (b - y)) / b := by field_simp; ring
  rw [h, abs_div, div_le_iff₀ hbp]
  have hE0 : 0 ≤ E := by
    by_contra hc
    push Not at hc
    have h1 : 0 ≤ e := (abs_nonneg _).trans ha
    have h2 : 0 ≤ Q := (abs_nonneg _).trans hQ
    have h3 : E * (m - f) < 0 := mul_neg_of_neg_of_pos hc (by linarith)
    nlinarith
  calc |(a - x) - x / y * (b - y)| ≤ |a - x| + |x / y * (b - y)| := abs_sub _ _
    _ ≤ e + Q * f := by
      rw [abs_mul]
      exact add_le_add ha (mul_le_mul hQ hb (abs_nonneg _) ((abs_nonneg _).trans hQ))
    _ ≤ E * (m - f) := hE
    _ ≤ E * |b| := mul_le_mul_of_nonneg_left hb1 hE0

end Dbl

/-! ### The angles of precession -/

variable {R : ℝ → ℝ}

theorem as2r_lit : |(0.484813681109535994e-5 : ℝ) - as2r| ≤ 1e-23 ∧ |as2r| ≤ 4.8482e-6 := by
  have p1 := Real.pi_gt_d20
  have p2 := Real.pi_lt_d20
  have e : |as2r| = as2r := abs_of_pos (by unfold as2r; positivity)
  rw [e]
  unfold as2r
  constructor
  · rw [abs_le]; constructor <;> norm_num at * <;> linarith
  · norm_num at *; linarith

theorem as2r_near (hR : Dbl R) : |R 0.484813681109535994e-5 - as2r| ≤ 6e-22 :=
  hR.round as2r_lit.1 as2r_lit.2 (by norm_num)

private theorem neg_near {a x e : ℝ} (h : |a - x| ≤ e) : |-a - -x| ≤ e := by
  rwa [show -a - -x = -(a - x) by ring, abs_neg]

private theorem mul_bound {a b A B : ℝ} (ha : |a| ≤ A) (hb : |b| ≤ B) : |a * b| ≤ A * B := by
  rw [abs_mul]; exact mul_le_mul ha hb (abs_nonneg _) ((abs_nonneg _).trans ha)

/-- `c ± e t0` -/
private theorem lin_near (hR : Dbl R) {c c' e t0 T0 : ℝ} (hc' : |c' - c| ≤ 1.8e-16) (hc : |c| ≤ 1.4) (he : |e| ≤ 0.0004)
    (ht : |t0 - T0| ≤ 2.5e-15) (hT : |T0| ≤ 10) :
    (|R (c' + R (R e * t0)) - (c + e * T0)| ≤ 5e-16 ∧ |c + e * T0| ≤ 1.41) ∧
      |R (c' - R (R e * t0)) - (c - e * T0)| ≤ 5e-16 ∧ |c - e * T0| ≤ 1.41 := by
  have h2 : |R e - e| ≤ 5e-20 := hR.lit he (by norm_num)
  have h3 : |R (R e * t0) - e * T0| ≤ 3e-18 := hR.mul h2 ht he hT (by norm_num)
  have b1 : |e * T0| ≤ 0.0004 * 10 := mul_bound he hT
  have b2 : |c + e * T0| ≤ 1.41 := (abs_add_le _ _).trans (by norm_num at *; linarith)
  have b3 : |c - e * T0| ≤ 1.41 := (abs_sub _ _).trans (by norm_num at *; linarith)
  exact ⟨⟨hR.add hc' h3 b2 (by norm_num), b2⟩, hR.sub hc' h3 b3 (by norm_num), b3⟩

/-- `l + b t0` -/
private theorem lead_near (hR : Dbl R) {l b B t0 T0 : ℝ} (hl : |l| ≤ 2307) (hb : |b - B| ≤ 5e-16) (hB : |B| ≤ 1.41)
    (ht : |t0 - T0| ≤ 2.5e-15) (hT : |T0| ≤ 10) :
    |R (R l + R (b * t0)) - (l + B * T0)| ≤ 7e-13 ∧ |l + B * T0| ≤ 2322 := by
  have h1 : |R l - l| ≤ 2.8e-13 := hR.lit hl (by norm_num)
  have h2 : |R (b * t0) - B * T0| ≤ 2e-14 := hR.mul hb ht hB hT (by norm_num)
  have b1 : |B * T0| ≤ 1.41 * 10 := mul_bound hB hT
  have b2 : |l + B * T0| ≤ 2322 := (abs_add_le _ _).trans (by norm_num at *; linarith)
  exact ⟨hR.add h1 h2 b2 (by norm_num), b2⟩

/-- `p ± f t` -/
private theorem rate_near (hR : Dbl R) {p P f t T : ℝ} (hp : |p - P| ≤ 5e-16) (hP : |P| ≤ 1.41) (hf : |f| ≤ 0.042)
    (ht : |t - T| ≤ 1.1e-14) (hT : |T| ≤ 20) :
    (|R (p + R (R f * t)) - (P + f * T)| ≤ 2e-15 ∧ |P + f * T| ≤ 2.25) ∧
      |R (p - R (R f * t)) - (P - f * T)| ≤ 2e-15 ∧ |P - f * T| ≤ 2.25 := by
  have h2 : |R f - f| ≤ 5.1e-18 := hR.lit hf (by norm_num)
  have h3 : |R (R f * t) - f * T| ≤ 7e-16 := hR.mul h2 ht hf hT (by norm_num)
  have b1 : |f * T| ≤ 0.042 * 20 := mul_bound hf hT
  have b2 : |P + f * T| ≤ 2.25 := (abs_add_le _ _).trans (by norm_num at *; linarith)
  have b3 : |P - f * T| ≤ 2.25 := (abs_sub _ _).trans (by norm_num at *; linarith)
  exact ⟨⟨hR.add hp h3 b2 (by norm_num), b2⟩, hR.sub hp h3 b3 (by norm_num), b3⟩

private theorem angle_near (hR : Dbl R) {w W s S t T k : ℝ} (hw : |w - W| ≤ 7e-13) (hW : |W| ≤ 2322) (hs : |s - S| ≤ 2e-15)
    (hS : |S| ≤ 2.25) (ht : |t - T| ≤ 1.1e-14) (hT : |T| ≤ 20) (hk : |k - T * as2r| ≤ 1e-19) :
    |R (R (w + R (s * t)) * k) - (W + S * T) * (T * as2r)| ≤ 5e-16 := by
  have h1 : |R (s * t) - S * T| ≤ 8e-14 := hR.mul hs ht hS hT (by norm_num)
  have b1 : |S * T| ≤ 2.25 * 20 := mul_bound hS hT
  have b2 : |W + S * T| ≤ 2367 := (abs_add_le _ _).trans (by norm_num at *; linarith)
  have h2 : |R (w + R (s * t)) - (W + S * T)| ≤ 1.1e-12 := hR.add hw h1 b2 (by norm_num)
  have b3 : |T * as2r| ≤ 20 * 4.8482e-6 := mul_bound hT as2r_lit.2
  exact hR.mul h2 hk b2 b3 (by norm_num)

/-- The interval in centuries. -/
private theorem century_near (hR : Dbl R) {a c c' : ℝ} (h : |a - c| ≤ 2000) (ha : |c' - a| ≤ 6.1e-13) :
    |R (R (c' - c) / 100) - (a - c) / 100| ≤ 1.1e-14 := by
  have h1 : |R (c' - c) - (a - c)| ≤ 8.52e-13 :=
    hR.round (e := 6.1e-13) (by rwa [show c' - c - (a - c) = c' - a by ring]) h (by norm_num)
  refine hR.div (f := 0) (m := 100) (Q := 20) (E := 8.52e-15) h1 (by simp) (by norm_num) (by norm_num) ?_ (by norm_num) (by norm_num)
  rw [abs_div, div_le_iff₀ (by norm_num)]; norm_num; linarith

/-- The base epoch in centuries. -/
private theorem base_near (hR : Dbl R) {a c : ℝ} (h : |a - c| ≤ 1000) : |R (R (a - c) / 100) - (a - c) / 100| ≤ 2.5e-15 := by
  have h1 : |R (a - c) - (a - c)| ≤ 1.21e-13 := hR.lit h (by norm_num)
  refine hR.div (f := 0) (m := 100) (Q := 10) (E := 1.21e-15) h1 (by simp) (by norm_num) (by norm_num) ?_ (by norm_num) (by norm_num)
  rw [abs_div, div_le_iff₀ (by norm_num)]; norm_num; linarith

private theorem scale_near (hR : Dbl R) {t T : ℝ} (ht : |t - T| ≤ 1.1e-14) (hT : |T| ≤ 20) :
    |R (t * R 0.484813681109535994e-5) - T * as2r| ≤ 1e-19 :=
  hR.mul ht (as2r_near hR) hT as2r_lit.2 (by norm_num)

/-- The exact Euler angles of `prec`. -/
noncomputable def precAnglesExact (ep0 ep1 : ℝ) : ℝ × ℝ × ℝ :=
  let t0 := (ep0 - 2000) / 100
  let t := (ep1 - ep0) / 100
  let tas2R := t * as2r
  let w := 2306.2181 + (1.39656 - 0.000139 * t0) * t0
  ((w + ((0.30188 - 0.000344 * t0) + 0.017998 * t) * t) * tas2R,
    ((2004.3109 + (-0.85330 - 0.000217 * t0) * t0) + ((-0.42665 - 0.000217 * t0) - 0.041833 * t) * t) * tas2R,
    (w + ((1.09468 + 0.000066 * t0) + 0.018203 * t) * t) * tas2R)

theorem prec_exact (ep0 ep1 : ℝ) : Sla.prec ep0 ep1 =
    eul (precAnglesExact ep0 ep1).1 (precAnglesExact ep0 ep1).2.1 (precAnglesExact ep0 ep1).2.2 := rfl

/-- The exact Euler angles of `prebn`. -/
noncomputable def prebnAnglesExact (be0 be1 : ℝ) : ℝ × ℝ × ℝ :=
  let bigt := (be0 - 1850) / 100
  let t := (be1 - be0) / 100
  let tas2r := t * as2r
  let w := 2303.5548 + (1.39720 + 0.000059 * bigt) * bigt
  ((w + (0.30242 - 0.000269 * bigt + 0.017996 * t) * t) * tas2r,
    (2005.1125 + (-0.85294 - 0.000365 * bigt) * bigt + (-0.42647 - 0.000365 * bigt - 0.041802 * t) * t) * tas2r,
    (w + (1.09478 + 0.000387 * bigt + 0.018324 * t) * t) * tas2r)

theorem prebn_exact (be0 be1 : ℝ) : Sla.prebn be0 be1 =
    eul (prebnAnglesExact be0 be1).1 (prebnAnglesExact be0 be1).2.1 (prebnAnglesExact be0 be1).2.2 := rfl

private theorem lit_le {x : ℝ} (hR : Dbl R) (hx : |x| ≤ 1.4) : |R x - x| ≤ 1.8e-16 := hR.lit hx (by norm_num)

private theorem hundredth {x B : ℝ} (h : |x| ≤ B) : |x / 100| ≤ B / 100 := by
  rw [abs_div, abs_of_pos (show (0 : ℝ) < 100 by norm_num)]; gcongr

/-- Angles computed in double precision, the second epoch being known to 6.1e-13 years. -/
theorem precAngles_near (hR : Dbl R) {ep0 ep1 ep1' : ℝ} (h0 : |ep0 - 2000| ≤ 1000) (h1 : |ep1 - ep0| ≤ 2000)
    (he : |ep1' - ep1| ≤ 6.1e-13) :
    let a := precAngles R ep0 ep1'
    let x := precAnglesExact ep0 ep1
    |a.1 - x.1| ≤ 5e-16 ∧ |a.2.1 - x.2.1| ≤ 5e-16 ∧ |a.2.2 - x.2.2| ≤ 5e-16 := by
  have ht0 := base_near hR h0
  have ht := century_near hR h1 he
  have b0 : |(ep0 - 2000) / 100| ≤ 10 := (hundredth h0).trans (by norm_num)
  have b1 : |(ep1 - ep0) / 100| ≤ 20 := (hundredth h1).trans (by norm_num)
  simp only [precAngles, precAnglesExact]
  generalize R (R (ep0 - 2000) / 100) = t0 at *
  generalize (ep0 - 2000) / 100 = T0 at *
  generalize R (R (ep1' - ep0) / 100) = t at *
  generalize (ep1 - ep0) / 100 = T at *
  have hk := scale_near hR ht b1
  generalize R (t * R 0.484813681109535994e-5) = k at *
  have w1 := (lin_near hR (c := 1.39656) (e := 0.000139) (lit_le hR (by norm_num [abs_le])) (by norm_num [abs_le]) (by norm_num [abs_le]) ht0 b0).2
  have w2 := lead_near hR (l := 2306.2181) (by norm_num [abs_le]) w1.1 w1.2 ht0 b0
  have z1 := (lin_near hR (c := 0.30188) (e := 0.000344) (lit_le hR (by norm_num [abs_le])) (by norm_num [abs_le]) (by norm_num [abs_le]) ht0 b0).2
  have z2 := (rate_near hR (f := 0.017998) z1.1 z1.2 (by norm_num [abs_le]) ht b1).1
  have y1 := (lin_near hR (c := 1.09468) (e := 0.000066) (lit_le hR (by norm_num [abs_le])) (by norm_num [abs_le]) (by norm_num [abs_le]) ht0 b0).1
  have y2 := (rate_near hR (f := 0.018203) y1.1 y1.2 (by norm_num [abs_le]) ht b1).1
  have x1 := (lin_near hR (c := -0.85330) (c' := -R 0.85330) (e := 0.000217) (neg_near (lit_le hR (by norm_num [abs_le])))
    (by norm_num [abs_le]) (by norm_num [abs_le]) ht0 b0).2
  have x2 := lead_near hR (l := 2004.3109) (by norm_num [abs_le]) x1.1 x1.2 ht0 b0
  have x3 := (lin_near hR (c := -0.42665) (c' := -R 0.42665) (e := 0.000217) (neg_near (lit_le hR (by norm_num [abs_le])))
    (by norm_num [abs_le]) (by norm_num [abs_le]) ht0 b0).2
  have x4 := (rate_near hR (f := 0.041833) x3.1 x3.2 (by norm_num [abs_le]) ht b1).2
  exact ⟨angle_near hR w2.1 w2.2 z2.1 z2.2 ht b1 hk, angle_near hR x2.1 x2.2 x4.1 x4.2 ht b1 hk,
    angle_near hR w2.1 w2.2 y2.1 y2.2 ht b1 hk⟩

theorem prebnAngles_near (hR : Dbl R) {be0 be1 : ℝ} (h0 : |be0 - 1850| ≤ 1000) (h1 : |be1 - be0| ≤ 2000) :
    let a := prebnAngles R be0 be1
    let x := prebnAnglesExact be0 be1
    |a.1 - x.1| ≤ 5e-16 ∧ |a.2.1 - x.2.1| ≤ 5e-16 ∧ |a.2.2 - x.2.2| ≤ 5e-16 := by
  have ht0 := base_near hR h0
  have ht := century_near hR h1 (c' := be1) (by norm_num)
  have b0 : |(be0 - 1850) / 100| ≤ 10 := (hundredth h0).trans (by norm_num)
  have b1 : |(be1 - be0) / 100| ≤ 20 := (hundredth h1).trans (by norm_num)
  simp only [prebnAngles, prebnAnglesExact]
  generalize R (R (be0 - 1850) / 100) = t0 at *
  generalize (be0 - 1850) / 100 = T0 at *
  generalize R (R (be1 - be0) / 100) = t at *
  generalize (be1 - be0) / 100 = T at *
  have hk := scale_near hR ht b1
  generalize R (t * R 0.484813681109535994e-5) = k at *
  have w1 := (lin_near hR (c := 1.39720) (e := 0.000059) (lit_le hR (by norm_num [abs_le])) (by norm_num [abs_le]) (by norm_num [abs_le]) ht0 b0).1
  have w2 := lead_near hR (l := 2303.5548) (by norm_num [abs_le]) w1.1 w1.2 ht0 b0
  have z1 := (lin_near hR (c := 0.30242) (e := 0.000269) (lit_le hR (by norm_num [abs_le])) (by norm_num [abs_le]) (by norm_num [abs_le]) ht0 b0).2
  have z2 := (rate_near hR (f := 0.017996) z1.1 z1.2 (by norm_num [abs_le]) ht b1).1
  have y1 := (lin_near hR (c := 1.09478) (e := 0.000387) (lit_le hR (by norm_num [abs_le])) (by norm_num [abs_le]) (by norm_num [abs_le]) ht0 b0).1
  have y2 := (rate_near hR (f := 0.018324) y1.1 y1.2 (by norm_num [abs_le]) ht b1).1
  have x1 := (lin_near hR (c := -0.85294) (c' := -R 0.85294) (e := 0.000365) (neg_near (lit_le hR (by norm_num [abs_le])))
    (by norm_num [abs_le]) (by norm_num [abs_le]) ht0 b0).2
  have x2 := lead_near hR (l := 2005.1125) (by norm_num [abs_le]) x1.1 x1.2 ht0 b0
  have x3 := (lin_near hR (c := -0.42647) (c' := -R 0.42647) (e := 0.000365) (neg_near (lit_le hR (by norm_num [abs_le])))
    (by norm_num [abs_le]) (by norm_num [abs_le]) ht0 b0).2
  have x4 := (rate_near hR (f := 0.041802) x3.1 x3.2 (by norm_num [abs_le]) ht b1).2
  exact ⟨angle_near hR w2.1 w2.2 z2.1 z2.2 ht b1 hk, angle_near hR x2.1 x2.2 x4.1 x4.2 ht b1 hk,
    angle_near hR w2.1 w2.2 y2.1 y2.2 ht b1 hk⟩

/-- The obliquity. -/
theorem ecmatPhi_near (hR : Dbl R) {date : ℝ} (h : |date - 51544.5| ≤ 365250) :
    |ecmatPhi R date - Sla.ecmatPhi date| ≤ 3e-16 := by
  have ht : |R (R (date - 51544.5) / 36525) - (date - 51544.5) / 36525| ≤ 2.5e-15 := by
    have h1 : |R (date - 51544.5) - (date - 51544.5)| ≤ 4.4e-11 := hR.lit h (by norm_num)
    refine hR.div (f := 0) (m := 36525) (Q := 10) (E := 1.21e-15) h1 (by simp) (by norm_num) (by norm_num) ?_ (by norm_num) (by norm_num)
    rw [abs_div, div_le_iff₀ (by norm_num)]; norm_num at *; linarith
  have b : |(date - 51544.5) / 36525| ≤ 10 := by
    rw [abs_div, div_le_iff₀ (by norm_num)]; norm_num at *; linarith
  simp only [ecmatPhi, Sla.ecmatPhi]
  generalize R (R (date - 51544.5) / 36525) = t at *
  generalize (date - 51544.5) / 36525 = T at *
  have a1 : |R 0.001813 - 0.001813| ≤ 3e-19 := hR.lit (B := 0.001813) (by norm_num [abs_le]) (by norm_num)
  have a2 : |R (R 0.001813 * t) - 0.001813 * T| ≤ 1.1e-17 := hR.mul a1 ht (X := 0.001813) (by norm_num [abs_le]) b (by norm_num)
  have a3 : |-R 0.00059 - -0.00059| ≤ 1e-19 := neg_near (hR.lit (B := 0.00059) (by norm_num [abs_le]) (by norm_num))
  have c2 : |0.001813 * T| ≤ 0.001813 * 10 := mul_bound (by norm_num [abs_le]) b
  have c3 : |-0.00059 + 0.001813 * T| ≤ 0.019 := (abs_add_le _ _).trans (by norm_num at *; linarith)
  have a4 : |R (-R 0.00059 + R (R 0.001813 * t)) - (-0.00059 + 0.001813 * T)| ≤ 2e-17 := hR.add a3 a2 c3 (by norm_num)
  have a5 := hR.mul a4 ht c3 b (g := 3e-16) (by norm_num)
  have c5 := mul_bound c3 b
  have a6 : |-R 46.8150 - -46.8150| ≤ 6e-15 := neg_near (hR.lit (B := 46.815) (by norm_num [abs_le]) (by norm_num))
  have c6 : |-46.8150 + (-0.00059 + 0.001813 * T) * T| ≤ 47.1 := (abs_add_le _ _).trans (by norm_num at *; linarith)
  have a7 := hR.add a6 a5 c6 (g := 1.3e-14) (by norm_num)
  have a8 := hR.mul a7 ht c6 b (g := 4e-13) (by norm_num)
  have c8 := mul_bound c6 b
  have a9 : |R 84381.448 - 84381.448| ≤ 1.02e-11 := hR.lit (B := 84382) (by norm_num [abs_le]) (by norm_num)
  have c9 : |84381.448 + (-46.8150 + (-0.00059 + 0.001813 * T) * T) * T| ≤ 84900 := (abs_add_le _ _).trans (by norm_num at *; linarith)
  have a10 := hR.add a9 a8 c9 (g := 2.2e-11) (by norm_num)
  exact hR.mul (as2r_near hR) a10 as2r_lit.2 c9 (by norm_num)

end Sla.Fp
