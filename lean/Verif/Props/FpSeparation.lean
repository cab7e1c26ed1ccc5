import Verif.Lemmas.FpVec
import Verif.Props.Spherical
import Verif.Props.FpVectors

/-
Property theorems C84: angular separation and spherical coordinates in double precision.
-/
namespace Sla.Props
open Sla.Fp Sla.Spec Matrix

/-! ### Angles of neighbouring points -/

theorem fp_angle_le {α d L L' : ℝ} (h0 : |α| ≤ Real.pi) (hL : 0 < L) (hL' : 0 ≤ L') (hd : 0 ≤ d) (hdL : d < L)
    (h : L' ^ 2 + L ^ 2 - 2 * L * L' * Real.cos α ≤ d ^ 2) : |α| * L ≤ Real.pi / 2 * d := by
  have hpi := Real.pi_pos
  have h1 : (L * Real.sin |α|) ^ 2 ≤ d ^ 2 := by
    have h2 := Real.sin_sq_add_cos_sq |α|
    rw [Real.cos_abs] at h2
    nlinarith [sq_nonneg (L' - L * Real.cos α)]
  have hs0 : 0 ≤ Real.sin |α| := Real.sin_nonneg_of_nonneg_of_le_pi (abs_nonneg _) h0
  have h2 : L * Real.sin |α| ≤ d := le_of_sq_le_sq h1 hd
  have hc : 0 < Real.cos |α| := by
    rw [Real.cos_abs]
    by_contra hc
    rw [not_lt] at hc
    have : 0 ≤ -(2 * L * L' * Real.cos α) := by
      have := mul_nonneg (mul_nonneg hL.le hL') (neg_nonneg.2 hc); nlinarith
    nlinarith [sq_nonneg L']
  have h3 : |α| ≤ Real.pi / 2 := by
    by_contra hcon
    rw [not_le] at hcon
    have := Real.cos_nonpos_of_pi_div_two_le_of_le hcon.le (by linarith)
    linarith
  have h4 := Real.mul_le_sin (abs_nonneg α) h3
  have h5 : |α| ≤ Real.pi / 2 * Real.sin |α| := by
    have := mul_le_mul_of_nonneg_left h4 (by positivity : 0 ≤ Real.pi / 2)
    calc |α| = Real.pi / 2 * (2 / Real.pi * |α|) := by field_simp
      _ ≤ _ := this
  calc |α| * L ≤ Real.pi / 2 * Real.sin |α| * L := mul_le_mul_of_nonneg_right h5 hL.le
    _ = Real.pi / 2 * (L * Real.sin |α|) := by ring
    _ ≤ _ := mul_le_mul_of_nonneg_left h2 (by positivity)

/-- Two neighbouring points of the closed upper half plane. -/
theorem fp_atan2_near {s s' c c' L d : ℝ} (hs : 0 ≤ s) (hs' : 0 ≤ s') (hL : 0 < L) (hsc : s * s + c * c = L ^ 2)
    (hd0 : 0 ≤ d) (hdL : d < L) (hd : (s' - s) ^ 2 + (c' - c) ^ 2 ≤ d ^ 2) :
    |atan2 s' c' - atan2 s c| * L ≤ Real.pi / 2 * d := by
  have rng : ∀ y x : ℝ, 0 ≤ y → 0 ≤ atan2 y x ∧ atan2 y x ≤ Real.pi := by
    intro y x hy
    exact ⟨Complex.arg_nonneg_iff.2 hy, Complex.arg_le_pi _⟩
  obtain ⟨r1, r2⟩ := rng s c hs
  obtain ⟨r1', r2'⟩ := rng s' c' hs'
  have p1 := polar_cos s c; have p2 := polar_sin s c
  have p1' := polar_cos s' c'; have p2' := polar_sin s' c'
  have e : Real.sqrt (c * c + s * s) = L := by
    rw [show c * c + s * s = L ^ 2 by linarith, Real.sqrt_sq hL.le]
  rw [e] at p1 p2
  have hL' : 0 ≤ Real.sqrt (c' * c' + s' * s') := Real.sqrt_nonneg _
  have hL2 : Real.sqrt (c' * c' + s' * s') ^ 2 = c' * c' + s' * s' := Real.sq_sqrt (by nlinarith)
  generalize Real.sqrt (c' * c' + s' * s') = L' at *
  refine fp_angle_le (L' := L') ?_ hL hL' hd0 hdL ?_
  · rw [abs_le]; constructor <;> linarith
  · rw [Real.cos_sub]
    have : 2 * L * L' * (Real.cos (atan2 s' c') * Real.cos (atan2 s c) + Real.sin (atan2 s' c') * Real.sin (atan2 s c)) =
        2 * (c' * c + s' * s) := by
      linear_combination 2 * L' * Real.cos (atan2 s' c') * p1 + 2 * L' * Real.sin (atan2 s' c') * p2 + 2 * c * p1' + 2 * s * p2'
    rw [this]
    nlinarith

/-- A vector near a unit vector. -/
theorem fp_angle_near {u w : Vec} (hu : len u = 1) {d : ℝ} (hd1 : d < 1) (h : len (w - u) ≤ d) :
    angleBetween w u ≤ Real.pi / 2 * d := by
  have hd0 : 0 ≤ d := (len_nonneg _).trans h
  have h0 : 0 ≤ angleBetween w u := InnerProductGeometry.angle_nonneg _ _
  have h1 : angleBetween w u ≤ Real.pi := InnerProductGeometry.angle_le_pi _ _
  have h2 : |angleBetween w u| * 1 ≤ Real.pi / 2 * d := by
    refine fp_angle_le (L' := len w) (by rw [abs_of_nonneg h0]; exact h1) one_pos (len_nonneg _) hd0 hd1 ?_
    have h3 := InnerProductGeometry.cos_angle_mul_norm_mul_norm (WithLp.toLp 2 w : EuclideanSpace ℝ (Fin 3)) (WithLp.toLp 2 u)
    rw [norm_toLp, norm_toLp, inner_toLp] at h3
    change Real.cos (angleBetween w u) * (len w * len u) = _ at h3
    have h4 : len (w - u) ^ 2 = len w ^ 2 - 2 * (w ⬝ᵥ u) + len u ^ 2 := by
      simp only [len]
      rw [Real.sq_sqrt (dot_self_nonneg _), Real.sq_sqrt (dot_self_nonneg _), Real.sq_sqrt (dot_self_nonneg _),
        sub_dotProduct, dotProduct_sub, dotProduct_sub, dotProduct_comm u w]
      ring
    have h5 : len (w - u) ^ 2 ≤ d ^ 2 := pow_le_pow_left₀ (len_nonneg _) h 2
    rw [hu] at h3 h4
    nlinarith
  rwa [mul_one, abs_of_nonneg h0] at h2

/-! ### The modulus for small vectors as well -/

theorem fp_modulus_near (R : Rounding binary64) (v : Vec) :
    |(Fp.dvn R v).1 - len v| ≤ 4 / 2 ^ 53 * len v + 2 ^ (-490 : ℤ) ∧ 0 ≤ (Fp.dvn R v).1 := by
  have hm0 : 0 ≤ (Fp.dvn R v).1 := R.nonneg (Real.sqrt_nonneg _)
  refine ⟨?_, hm0⟩
  have t0 := two_zpow_pos (-490)
  rcases le_or_gt ((2 : ℝ) ^ (-500 : ℤ)) (len v) with h | h
  · have := (C80_dvn R v h).1
    generalize (Fp.dvn R v).1 = m at *
    refine this.trans ?_
    have e : (4 : ℝ) / 2 ^ 53 = 1 / 2 ^ 51 := by norm_num
    rw [e]; linarith
  · have hs := dot_near R v v
    have hL0 := len_nonneg v
    have hvv : v ⬝ᵥ v = len v * len v := by rw [len, Real.mul_self_sqrt (dot_self_nonneg v)]
    rw [hvv] at hs
    have hr : (Fp.dvn R v).1 ≤ 2 ^ (-499 : ℤ) := by
      show R (Real.sqrt (Fp.acc3 R fun i => R (v i * v i))) ≤ _
      refine R.le_rep ?_ ⟨1, -499, by norm_num [binary64], by norm_num [binary64], by simp⟩
      refine Real.sqrt_le_iff.2 ⟨(two_zpow_pos _).le, ?_⟩
      generalize Fp.acc3 R (fun i => R (v i * v i)) = s at *
      have h1 : len v * len v ≤ 2 ^ (-500 : ℤ) * 2 ^ (-500 : ℤ) := mul_self_le_mul_self hL0 h.le
      rw [← zpow_split] at h1
      have h2 : ((2 : ℝ) ^ (-499 : ℤ)) ^ 2 = 4 * 2 ^ (-1000 : ℤ) := by
        rw [sq, ← zpow_split, show (-499 + -499 : ℤ) = 2 + -1000 by norm_num, zpow_split]; norm_num
      have h3 : (2 : ℝ) ^ (-1072 : ℤ) ≤ 2 ^ (-1000 : ℤ) := two_zpow_le (by norm_num)
      rw [h2]
      rw [show (-500 + -500 : ℤ) = -1000 by norm_num] at h1
      generalize (2 : ℝ) ^ (-1000 : ℤ) = τ at *
      generalize (2 : ℝ) ^ (-1072 : ℤ) = σ at *
      rw [abs_le] at hs
      norm_num at hs
      nlinarith [hs.2, mul_self_nonneg (len v)]
    have h4 : (2 : ℝ) ^ (-499 : ℤ) ≤ 2 ^ (-490 : ℤ) := two_zpow_le (by norm_num)
    have h5 : (2 : ℝ) ^ (-500 : ℤ) ≤ 2 ^ (-490 : ℤ) := two_zpow_le (by norm_num)
    have h6 : 0 ≤ 4 / 2 ^ 53 * len v := by positivity
    rw [abs_le]; constructor <;> linarith

private theorem cross_abs_le (a b : Vec) (i j : Fin 3) (hij : i ≠ j) :
    |a i * b j| + |a j * b i| ≤ len a * len b := by
  rw [len_eq, len_eq, abs_mul, abs_mul,
    ← Real.sqrt_mul (add_nonneg (add_nonneg (mul_self_nonneg _) (mul_self_nonneg _)) (mul_self_nonneg _))]
  apply Real.le_sqrt_of_sq_le
  rw [← abs_mul_abs_self (a 0), ← abs_mul_abs_self (a 1), ← abs_mul_abs_self (a 2), ← abs_mul_abs_self (b 0),
    ← abs_mul_abs_self (b 1), ← abs_mul_abs_self (b 2)]
  have key : ∀ x y z u v w : ℝ, (x * v + y * u) ^ 2 ≤ (x * x + y * y + z * z) * (u * u + v * v + w * w) := by
    intro x y z u v w
    nlinarith [sq_nonneg (x * u - y * v), sq_nonneg (x * w), sq_nonneg (y * w), sq_nonneg (z * u), sq_nonneg (z * v),
      sq_nonneg (z * w)]
  fin_cases i <;> fin_cases j <;> simp only [Fin.zero_eta, Fin.mk_one, Fin.reduceFinMk, ne_eq, not_true_eq_false] at hij ⊢
  · exact key _ _ _ _ _ _
  · have := key |a 0| |a 2| |a 1| |b 0| |b 2| |b 1|; linarith
  · have := key |a 1| |a 0| |a 2| |b 1| |b 0| |b 2|; linarith
  · have := key |a 1| |a 2| |a 0| |b 1| |b 2| |b 0|; linarith
  · have := key |a 2| |a 0| |a 1| |b 2| |b 0| |b 1|; linarith
  · have := key |a 2| |a 1| |a 0| |b 2| |b 1| |b 0|; linarith

private theorem diff_near (R : Rounding binary64) (x y A : ℝ) (h : |x| + |y| ≤ A) :
    |R (R x - R y) - (x - y)| ≤ 2.01 / 2 ^ 53 * A + 2 ^ (-1072 : ℤ) := by
  have t72 : (2 : ℝ) ^ (-1072 : ℤ) = 8 * 2 ^ (-1075 : ℤ) := by
    rw [show (-1072 : ℤ) = 3 + -1075 by norm_num, zpow_split]; norm_num
  have t0 := two_zpow_pos (-1075)
  have e1 := err64 R x; have e2 := err64 R y
  rw [t72]
  generalize (R x) = x' at *
  generalize (R y) = y' at *
  have e3 := err64 R (x' - y')
  generalize R (x' - y') = z at *
  generalize (2 : ℝ) ^ (-1075 : ℤ) = η at *
  have k1 : |x' - y'| ≤ |x| + |y| + |x - x'| + |y - y'| := by
    have := abs_add_le (x - y) (-(x - x') + (y - y'))
    have := abs_add_le (-(x - x')) (y - y')
    have := abs_sub x y
    rw [abs_neg] at *
    rw [show x' - y' = x - y + (-(x - x') + (y - y')) by ring]; linarith
  have k2 : |z - (x - y)| ≤ |x' - y' - z| + |x - x'| + |y - y'| := by
    have := abs_add_le (-(x' - y' - z)) (-(x - x') + (y - y'))
    have := abs_add_le (-(x - x')) (y - y')
    rw [abs_neg] at *
    rw [show z - (x - y) = -(x' - y' - z) + (-(x - x') + (y - y')) by ring]; linarith
  have p1 := abs_nonneg x; have p2 := abs_nonneg y
  clear t72
  norm_num at e1 e2 e3 ⊢
  linarith

private theorem cross_near (R : Rounding binary64) (a b : Vec) :
    len (Fp.dvxv R a b - a ⨯₃ b) ≤ 3.5 / 2 ^ 53 * (len a * len b) + 2 ^ (-1071 : ℤ) := by
  have t72 : (2 : ℝ) ^ (-1071 : ℤ) = 2 * 2 ^ (-1072 : ℤ) := by
    rw [show (-1071 : ℤ) = 1 + -1072 by norm_num, zpow_split]; norm_num
  have t0 := two_zpow_pos (-1072)
  have h : ∀ i, |(Fp.dvxv R a b - a ⨯₃ b) i| ≤ 2.01 / 2 ^ 53 * (len a * len b) + 2 ^ (-1072 : ℤ) := by
    intro i
    fin_cases i
    · exact diff_near R (a 1 * b 2) (a 2 * b 1) _ (cross_abs_le a b 1 2 (by decide))
    · exact diff_near R (a 2 * b 0) (a 0 * b 2) _ (cross_abs_le a b 2 0 (by decide))
    · exact diff_near R (a 0 * b 1) (a 1 * b 0) _ (cross_abs_le a b 0 1 (by decide))
  have := len_le_of h
  have hp : 0 ≤ len a * len b := mul_nonneg (len_nonneg _) (len_nonneg _)
  rw [t72]
  generalize (2 : ℝ) ^ (-1072 : ℤ) = η at *
  norm_num at *
  linarith

/-- C84: the separation of two vectors computed in double precision is right to 1.5e-15 rad plus the error `ε` of the
    library's `atan2`, for every angle from 0 to 180 degrees (no loss of precision for small angles) and all lengths not
    below 2^-200. -/
theorem C84_dsepv (R : Rounding binary64) (at2 : ℝ → ℝ → ℝ) {ε : ℝ} (ha : ∀ y x, |at2 y x - atan2 y x| ≤ ε) (u v : Vec)
    (hu : (2 : ℝ) ^ (-200 : ℤ) ≤ len u) (hv : (2 : ℝ) ^ (-200 : ℤ) ≤ len v) :
    |Fp.dsepv R at2 u v - angleBetween u v| ≤ 1.5e-15 + ε := by
  have u0 : 0 < len u := (two_zpow_pos _).trans_le hu
  have v0 : 0 < len v := (two_zpow_pos _).trans_le hv
  have un : u ≠ 0 := by rintro rfl; simp [len] at u0
  have vn : v ≠ 0 := by rintro rfl; simp [len] at v0
  obtain ⟨L, hL⟩ : ∃ L, L = len u * len v := ⟨_, rfl⟩
  have hL0 : 0 < L := by rw [hL]; positivity
  have hL1 : (2 : ℝ) ^ (-400 : ℤ) ≤ L := by
    rw [hL, show (-400 : ℤ) = -200 + -200 by norm_num, zpow_split]
    exact mul_le_mul hu hv (two_zpow_pos _).le u0.le
  rw [← C27_dsepv_angle u v un vn, dsepv_eq]
  change |_ - atan2 (len (u ⨯₃ v)) (u ⬝ᵥ v)| ≤ _
  have hsc : len (u ⨯₃ v) * len (u ⨯₃ v) + (u ⬝ᵥ v) * (u ⬝ᵥ v) = L ^ 2 := by
    rw [len, Real.mul_self_sqrt (dot_self_nonneg _), cross_dot_cross, hL, len, len, mul_pow,
      Real.sq_sqrt (dot_self_nonneg _), Real.sq_sqrt (dot_self_nonneg _), dotProduct_comm v u]
    ring
  have hc := dvdv_near R u v
  have hx := cross_near R u v
  obtain ⟨hm, hm0⟩ := fp_modulus_near R (Fp.dvxv R u v)
  have hs0 := len_nonneg (u ⨯₃ v)
  have hd1 := len_add_le (u ⨯₃ v) (Fp.dvxv R u v - u ⨯₃ v)
  have hd2 := len_add_le (Fp.dvxv R u v) (-(Fp.dvxv R u v - u ⨯₃ v))
  rw [add_sub_cancel] at hd1
  rw [show -(Fp.dvxv R u v - u ⨯₃ v) = (-1 : ℝ) • (Fp.dvxv R u v - u ⨯₃ v) by simp, len_smul, abs_neg, abs_one, one_mul,
    show Fp.dvxv R u v + (-1 : ℝ) • (Fp.dvxv R u v - u ⨯₃ v) = u ⨯₃ v by simp] at hd2
  rw [← hL] at hc hx
  unfold Fp.dsepv
  simp only
  generalize (Fp.dvn R (Fp.dvxv R u v)).1 = s' at *
  generalize len (Fp.dvxv R u v) = m at *
  generalize len (Fp.dvxv R u v - u ⨯₃ v) = δ at *
  generalize Fp.dvdv R u v = c' at *
  generalize len (u ⨯₃ v) = s at *
  generalize u ⬝ᵥ v = c at *
  have hsL : s ≤ L := by nlinarith [mul_self_nonneg c]
  have t1 : (2 : ℝ) ^ (-490 : ℤ) ≤ 1 / 2 ^ 80 * L := by
    have : (2 : ℝ) ^ (-490 : ℤ) ≤ 1 / 2 ^ 80 * 2 ^ (-400 : ℤ) := by
      rw [show (1 : ℝ) / 2 ^ 80 = 2 ^ (-80 : ℤ) by norm_num, ← zpow_split]; exact two_zpow_le (by norm_num)
    exact this.trans (mul_le_mul_of_nonneg_left hL1 (by norm_num))
  have t2 : (2 : ℝ) ^ (-1072 : ℤ) ≤ 1 / 2 ^ 80 * L := le_trans (two_zpow_le (by norm_num)) t1
  have t3 : (2 : ℝ) ^ (-1071 : ℤ) ≤ 1 / 2 ^ 80 * L := le_trans (two_zpow_le (by norm_num)) t1
  have b1 : |s' - s| ≤ 7.6 / 2 ^ 53 * L := by
    generalize (2 : ℝ) ^ (-490 : ℤ) = τ1 at *
    generalize (2 : ℝ) ^ (-1071 : ℤ) = τ3 at *
    clear hsc hc t2
    rw [abs_le] at *
    norm_num at *
    constructor <;> linarith [hm.1, hm.2]
  have b2 : |c' - c| ≤ 3.2 / 2 ^ 53 * L := by
    generalize (2 : ℝ) ^ (-1072 : ℤ) = τ1 at *
    refine hc.trans ?_
    norm_num at *
    linarith
  have hd : (s' - s) ^ 2 + (c' - c) ^ 2 ≤ (8.3 / 2 ^ 53 * L) ^ 2 := by
    have k1 := mul_self_le_mul_self (abs_nonneg _) b1
    have k2 := mul_self_le_mul_self (abs_nonneg _) b2
    rw [abs_mul_abs_self] at k1 k2
    rw [sq, sq]
    refine (add_le_add k1 k2).trans ?_
    have := mul_self_nonneg L
    nlinarith
  have hnear := fp_atan2_near hs0 hm0 hL0 hsc (by positivity) (by norm_num; linarith) hd
  have hn2 : |atan2 s' c' - atan2 s c| ≤ 1.5e-15 := by
    apply le_of_mul_le_mul_right _ hL0
    refine hnear.trans ?_
    have h2 := Real.pi_lt_d6
    have : Real.pi / 2 * (8.3 / 2 ^ 53 * L) = Real.pi * L * (4.15 / 2 ^ 53) := by ring
    rw [this]
    have : Real.pi * L ≤ 3.141593 * L := mul_le_mul_of_nonneg_right h2.le hL0.le
    norm_num at *
    linarith
  have hs'0 : s' ≠ 0 ∨ c' ≠ 0 := by
    by_contra hcon
    push Not at hcon
    rw [hcon.1, hcon.2] at hd
    have : (0 - s) ^ 2 + (0 - c) ^ 2 = L ^ 2 := by rw [← hsc]; ring
    rw [this, mul_pow] at hd
    have : 0 < L ^ 2 := by positivity
    norm_num at hd
    nlinarith
  rw [if_pos hs'0]
  have h1 := ha s' c'
  have h2 := abs_sub_le (at2 s' c') (atan2 s' c') (atan2 s c)
  linarith

/-- C84: the separation of two points on the sphere is right to 1.2e-15 rad plus 11.1 times the error of the sines and cosines plus
    the error of `atan2`. -/
theorem C84_dsep (R : Rounding binary64) (sn cs : ℝ → ℝ) (at2 : ℝ → ℝ → ℝ) {ε ε' : ℝ} (hε : ε ≤ 1e-3)
    (hs : ∀ a, |sn a - Real.sin a| ≤ ε) (hc : ∀ a, |cs a - Real.cos a| ≤ ε)
    (ha : ∀ y x, |at2 y x - atan2 y x| ≤ ε') (l1 b1 l2 b2 : ℝ) :
    |Fp.dsep R sn cs at2 l1 b1 l2 b2 - angleBetween (direction l1 b1) (direction l2 b2)| ≤ 2.2e-15 + 11.1 * ε + ε' := by
  have hε0 : 0 ≤ ε := (abs_nonneg _).trans (hs 0)
  have near : ∀ l b, len (Fp.dcs2c R sn cs l b - direction l b) ≤ 1.74 * (2.01 * ε + 1.1 / 2 ^ 53) := by
    intro l b
    have prod : ∀ x x0 y y0 : ℝ, |x - x0| ≤ ε → |y - y0| ≤ ε → |x0| ≤ 1 → |y0| ≤ 1 →
        |R (x * y) - x0 * y0| ≤ 2.01 * ε + 1.1 / 2 ^ 53 := by
      intro x x0 y y0 hx hy hx0 hy0
      have e1 : |x * y - x0 * y0| ≤ 2.001 * ε := by
        have e : x * y - x0 * y0 = (x - x0) * y0 + x0 * (y - y0) + (x - x0) * (y - y0) := by ring
        rw [e]
        have k1 : |(x - x0) * y0| ≤ ε * 1 := by rw [abs_mul]; exact mul_le_mul hx hy0 (abs_nonneg _) hε0
        have k2 : |x0 * (y - y0)| ≤ 1 * ε := by rw [abs_mul]; exact mul_le_mul hx0 hy (abs_nonneg _) one_pos.le
        have k3 : |(x - x0) * (y - y0)| ≤ 1e-3 * ε := by
          rw [abs_mul]; exact mul_le_mul (hx.trans hε) hy (abs_nonneg _) (by norm_num)
        have := abs_add_le ((x - x0) * y0 + x0 * (y - y0)) ((x - x0) * (y - y0))
        have := abs_add_le ((x - x0) * y0) (x0 * (y - y0))
        norm_num at *; linarith
      have e2 := err64 R (x * y)
      have e3 : |x0 * y0| ≤ 1 := by
        rw [abs_mul]; calc |x0| * |y0| ≤ 1 * 1 := mul_le_mul hx0 hy0 (abs_nonneg _) one_pos.le
          _ = 1 := by norm_num
      have e4 : |x * y| ≤ |x0 * y0| + |x * y - x0 * y0| := by
        have := abs_add_le (x0 * y0) (x * y - x0 * y0)
        rwa [add_sub_cancel] at this
      have e5 := abs_sub_le (R (x * y)) (x * y) (x0 * y0)
      rw [abs_sub_comm (R (x * y)) (x * y)] at e5
      have t : (2 : ℝ) ^ (-1075 : ℤ) ≤ 0.01 / 2 ^ 53 := by
        have : (2 : ℝ) ^ (-1075 : ℤ) ≤ 2 ^ (-60 : ℤ) := two_zpow_le (by norm_num)
        refine this.trans (by norm_num)
      generalize (2 : ℝ) ^ (-1075 : ℤ) = η at *
      norm_num at *
      linarith
    apply len_le_of
    intro i
    rw [direction_eq]
    fin_cases i
    · exact prod _ _ _ _ (hc l) (hc b) (Real.abs_cos_le_one _) (Real.abs_cos_le_one _)
    · exact prod _ _ _ _ (hs l) (hc b) (Real.abs_sin_le_one _) (Real.abs_cos_le_one _)
    · refine (hs b).trans ?_
      norm_num; linarith
  have small : 1.74 * (2.01 * ε + 1.1 / 2 ^ 53) < 1 / 2 := by norm_num at *; linarith
  have lower : ∀ l b, (2 : ℝ) ^ (-200 : ℤ) ≤ len (Fp.dcs2c R sn cs l b) := by
    intro l b
    have h1 := near l b
    have h2 := len_add_le (Fp.dcs2c R sn cs l b) ((-1 : ℝ) • (Fp.dcs2c R sn cs l b - direction l b))
    rw [len_smul, abs_neg, abs_one, one_mul, show Fp.dcs2c R sn cs l b + (-1 : ℝ) • (Fp.dcs2c R sn cs l b - direction l b) =
      direction l b by simp, len_direction] at h2
    have h3 : (2 : ℝ) ^ (-200 : ℤ) ≤ 2 ^ (-1 : ℤ) := two_zpow_le (by norm_num)
    have h4 : (2 : ℝ) ^ (-1 : ℤ) = 1 / 2 := by norm_num
    rw [h4] at h3
    exact h3.trans (by linarith)
  have h1 := C84_dsepv R at2 ha _ _ (lower l1 b1) (lower l2 b2)
  have a1 := fp_angle_near (len_direction l1 b1) (by linarith) (near l1 b1)
  have a2 := fp_angle_near (len_direction l2 b2) (by linarith) (near l2 b2)
  have tri : ∀ x y z : Vec, angleBetween x z ≤ angleBetween x y + angleBetween y z := fun x y z =>
    InnerProductGeometry.angle_le_angle_add_angle _ _ _
  have sym : ∀ x y : Vec, angleBetween x y = angleBetween y x := fun x y => InnerProductGeometry.angle_comm _ _
  change |Fp.dsepv R at2 (Fp.dcs2c R sn cs l1 b1) (Fp.dcs2c R sn cs l2 b2) - _| ≤ _
  generalize Fp.dsepv R at2 (Fp.dcs2c R sn cs l1 b1) (Fp.dcs2c R sn cs l2 b2) = r at *
  generalize Fp.dcs2c R sn cs l1 b1 = w1 at *
  generalize Fp.dcs2c R sn cs l2 b2 = w2 at *
  generalize direction l1 b1 = d1 at *
  generalize direction l2 b2 = d2 at *
  have k1 := tri w1 d1 w2
  have k2 := tri d1 d2 w2
  have k3 := tri d1 w1 d2
  have k4 := tri w1 w2 d2
  rw [sym d2 w2] at k2
  rw [sym d1 w1] at k3
  have hpi : Real.pi / 2 * (1.74 * (2.01 * ε + 1.1 / 2 ^ 53)) ≤ 1.5708 * (1.74 * (2.01 * ε + 1.1 / 2 ^ 53)) := by
    have := Real.pi_lt_d6
    exact mul_le_mul_of_nonneg_right (by norm_num at *; linarith) (by positivity)
  generalize Real.pi / 2 * (1.74 * (2.01 * ε + 1.1 / 2 ^ 53)) = κ at *
  generalize angleBetween w1 w2 = θ at *
  generalize angleBetween d1 d2 = θ0 at *
  rw [abs_le] at *
  norm_num at *
  constructor <;> linarith [h1.1, h1.2]

private theorem dcc2s_radius (R : Rounding binary64) (v : Vec) :
    R (Real.sqrt (R (R (v 0 * v 0) + R (v 1 * v 1)))) = (Fp.dvn R ![v 0, v 1, 0]).1 := by
  show _ = R (Real.sqrt (Fp.acc3 R fun i => R (![v 0, v 1, 0] i * ![v 0, v 1, 0] i)))
  unfold Fp.acc3
  simp only [Matrix.cons_val_zero, Matrix.cons_val_one, Matrix.cons_val, zero_add, mul_zero, R.zero, add_zero, R.eq_self (R.rep _)]

private theorem atan2_neg_pos {y x : ℝ} (hy : 0 < y) : atan2 (-y) x = -atan2 y x := by
  unfold atan2
  have : (⟨x, -y⟩ : ℂ) = (starRingEnd ℂ) ⟨x, y⟩ := rfl
  rw [this, Complex.arg_conj, if_neg]
  intro h
  rw [Complex.arg_eq_pi_iff] at h
  simp at h
  linarith [h.2]

/-- C84: `dcc2s` in double precision returns the longitude and latitude of the vector up to the error of `atan2`, plus 7.1e-16
    rad in latitude. -/
theorem C84_dcc2s (R : Rounding binary64) (at2 : ℝ → ℝ → ℝ) {ε : ℝ} (ha : ∀ y x, |at2 y x - atan2 y x| ≤ ε) (v : Vec) :
    ((2 : ℝ) ^ (-500 : ℤ) ≤ Real.sqrt (v 0 * v 0 + v 1 * v 1) → |(Fp.dcc2s R at2 v).1 - (Sla.dcc2s v).a| ≤ ε) ∧
      ((2 : ℝ) ^ (-400 : ℤ) ≤ len v → |(Fp.dcc2s R at2 v).2 - (Sla.dcc2s v).b| ≤ 7.1e-16 + ε) := by
  have hε : 0 ≤ ε := (abs_nonneg _).trans (ha 0 0)
  have hlen : len ![v 0, v 1, 0] = Real.sqrt (v 0 * v 0 + v 1 * v 1) := by rw [len_eq]; simp
  have hr := dcc2s_radius R v
  constructor
  · intro h
    have hm := (C80_dvn R ![v 0, v 1, 0] (by rw [hlen]; exact h)).1
    rw [hlen, ← hr] at hm
    unfold Fp.dcc2s Sla.dcc2s
    simp only
    generalize R (Real.sqrt (R (R (v 0 * v 0) + R (v 1 * v 1)))) = r' at *
    have p := two_zpow_pos (-500)
    generalize Real.sqrt (v 0 * v 0 + v 1 * v 1) = r at *
    have r0 : 0 < r := p.trans_le h
    have r1 : r' ≠ 0 := by
      rintro rfl
      rw [zero_sub, abs_neg, abs_of_pos r0] at hm
      norm_num at hm
      linarith
    rw [if_neg r1, if_neg r0.ne']
    exact ha _ _
  · intro h
    obtain ⟨hm, hm0⟩ := fp_modulus_near R ![v 0, v 1, 0]
    rw [hlen, ← hr] at hm
    rw [← hr] at hm0
    have hL0 : 0 < len v := (two_zpow_pos _).trans_le h
    have hL2 : v 2 * v 2 + Real.sqrt (v 0 * v 0 + v 1 * v 1) * Real.sqrt (v 0 * v 0 + v 1 * v 1) = len v ^ 2 := by
      have p0 := mul_self_nonneg (v 0); have p1 := mul_self_nonneg (v 1); have p2 := mul_self_nonneg (v 2)
      rw [Real.mul_self_sqrt (by linarith), len_eq, Real.sq_sqrt (by linarith)]; ring
    have hr0 := Real.sqrt_nonneg (v 0 * v 0 + v 1 * v 1)
    unfold Fp.dcc2s Sla.dcc2s
    simp only
    generalize R (Real.sqrt (R (R (v 0 * v 0) + R (v 1 * v 1)))) = r' at *
    generalize Real.sqrt (v 0 * v 0 + v 1 * v 1) = r at *
    generalize len v = L at *
    generalize v 2 = z at *
    split_ifs with hz
    · rw [sub_zero, abs_zero]; norm_num; linarith
    have t1 : (2 : ℝ) ^ (-490 : ℤ) ≤ 1 / 2 ^ 80 * L := by
      have : (2 : ℝ) ^ (-490 : ℤ) ≤ 1 / 2 ^ 80 * 2 ^ (-400 : ℤ) := by
        rw [show (1 : ℝ) / 2 ^ 80 = 2 ^ (-80 : ℤ) by norm_num, ← zpow_split]; exact two_zpow_le (by norm_num)
      exact this.trans (mul_le_mul_of_nonneg_left h (by norm_num))
    have hrL : r ≤ L := by nlinarith [mul_self_nonneg z]
    have b : |r' - r| ≤ 4.01 / 2 ^ 53 * L := by
      generalize (2 : ℝ) ^ (-490 : ℤ) = τ at *
      refine hm.trans ?_
      clear hm h hL2
      norm_num at *
      linarith
    have b2 : (r' - r) ^ 2 ≤ (4.01 / 2 ^ 53 * L) ^ 2 := by
      rw [← sq_abs]; exact pow_le_pow_left₀ (abs_nonneg _) b 2
    have fin : ∀ A : ℝ, A * L ≤ Real.pi / 2 * (4.01 / 2 ^ 53 * L) → A ≤ 7.1e-16 := by
      intro A hA
      apply le_of_mul_le_mul_right _ hL0
      refine hA.trans ?_
      have h2 := Real.pi_lt_d6
      have : Real.pi / 2 * (4.01 / 2 ^ 53 * L) = Real.pi * L * (2.005 / 2 ^ 53) := by ring
      rw [this]
      have : Real.pi * L ≤ 3.141593 * L := mul_le_mul_of_nonneg_right h2.le hL0.le
      norm_num at *
      linarith
    have key : |atan2 z r' - atan2 z r| ≤ 7.1e-16 := by
      rcases lt_or_gt_of_ne hz with hz | hz
      · have hz' : 0 < -z := by linarith
        have e1 := atan2_neg_pos (x := r) hz'
        have e2 := atan2_neg_pos (x := r') hz'
        rw [neg_neg] at e1 e2
        rw [e1, e2, show -atan2 (-z) r' - -atan2 (-z) r = -(atan2 (-z) r' - atan2 (-z) r) by ring, abs_neg]
        exact fin _ (fp_atan2_near hz'.le hz'.le hL0 (by rw [← hL2]; ring) (by positivity) (by norm_num; linarith)
          (by rw [sub_self]; norm_num at *; exact b2))
      · exact fin _ (fp_atan2_near hz.le hz.le hL0 hL2 (by positivity) (by norm_num; linarith)
          (by rw [sub_self]; norm_num at *; exact b2))
    have h1 := ha z r'
    have h2 := abs_sub_le (at2 z r') (atan2 z r') (atan2 z r)
    linarith

/-- the hypotheses hold for two perpendicular unit vectors, and with the exact arc tangent the result is within 1.5e-15 of the
    angle between them -/
example (R : Rounding binary64) : |Fp.dsepv R atan2 ![1, 0, 0] ![0, 1, 0] - angleBetween ![1, 0, 0] ![0, 1, 0]| ≤ 1.5e-15 := by
  have h1 : (2 : ℝ) ^ (-200 : ℤ) ≤ 1 := by
    have : (2 : ℝ) ^ (-200 : ℤ) ≤ 2 ^ (0 : ℤ) := two_zpow_le (by norm_num)
    simpa using this
  have := C84_dsepv R atan2 (ε := 0) (by simp) ![1, 0, 0] ![0, 1, 0] (by rw [len_eq]; simpa using h1)
    (by rw [len_eq]; simpa using h1)
  linarith

/-- the hypotheses of `C84_dsep` and `C84_dcc2s` hold for exact library functions -/
example (R : Rounding binary64) : |Fp.dsep R Real.sin Real.cos atan2 1 0.5 2 (-0.3) -
    angleBetween (direction 1 0.5) (direction 2 (-0.3))| ≤ 2.2e-15 := by
  have := C84_dsep R Real.sin Real.cos atan2 (ε := 0) (ε' := 0) (by norm_num) (by simp) (by simp) (by simp) 1 0.5 2 (-0.3)
  linarith

example (R : Rounding binary64) : (Fp.dcc2s R atan2 ![3, 4, 5]).1 = (Sla.dcc2s ![3, 4, 5]).a := by
  have h1 : (2 : ℝ) ^ (-500 : ℤ) ≤ 5 := by
    have : (2 : ℝ) ^ (-500 : ℤ) ≤ 2 ^ (0 : ℤ) := two_zpow_le (by norm_num)
    refine this.trans (by norm_num)
  have h := (C84_dcc2s R atan2 (ε := 0) (by simp) ![3, 4, 5]).1 (by
    simp only [Matrix.cons_val_zero, Matrix.cons_val_one]
    rw [show (3 * 3 + 4 * 4 : ℝ) = 5 ^ 2 by norm_num, Real.sqrt_sq (by norm_num)]; exact h1)
  exact sub_eq_zero.1 (abs_eq_zero.1 (le_antisymm h (abs_nonneg _)))

end Sla.Props
