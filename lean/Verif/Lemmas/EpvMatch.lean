import Verif.Lemmas.EpvKepler

/-
The leading terms of `epv` and the elliptic motion of `evp`, in the ecliptic frame of J2000.
-/
noncomputable section
namespace Sla.EvpL
open Real

/-- Generic steps: a term whose phase is shifted a little. -/
theorem lin_match {α β a η θ : ℝ} (ha : |a| ≤ 1) (hη : |η| ≤ 4e-5) :
    |α * cos (θ + η) + β * sin (θ + η) - a * cos θ| ≤ |α - a| + |β - a * η| + 2e-9 := by
  obtain ⟨B, hB⟩ : ∃ B, B = θ + η := ⟨_, rfl⟩
  have e : cos θ = cos B * cos η + sin B * sin η := by rw [← cos_sub, hB, add_sub_cancel_right]
  rw [← hB, e]
  have k1 := cos_small hη
  have h1 : |η| ≤ 1 := hη.trans (by norm_num)
  have k2 := sin_bound h1
  have q5 : |η| ^ 5 ≤ 1.1e-22 := (pow_le_pow_left₀ (abs_nonneg _) hη 5).trans (by norm_num)
  have q3 : |η ^ 3| ≤ 1e-13 := by rw [abs_pow]; exact (pow_le_pow_left₀ (abs_nonneg _) hη 3).trans (by norm_num)
  have k3 : |sin η - η| ≤ 1e-13 := by
    rw [abs_le] at k2 q3 ⊢; constructor <;> linarith
  have e2 : α * cos B + β * sin B - a * (cos B * cos η + sin B * sin η) =
      (α - a) * cos B + (β - a * η) * sin B - a * (cos B * (cos η - 1) + sin B * (sin η - η)) := by ring
  rw [e2]
  have m1 := abs_mul_le' (le_refl |α - a|) (abs_cos_le_one B)
  have m2 := abs_mul_le' (le_refl |β - a * η|) (abs_sin_le_one B)
  have m3 := abs_mul_le' ha (abs_add_le' (abs_mul_le' (abs_cos_le_one B) k1) (abs_mul_le' (abs_sin_le_one B) k3))
  refine (abs_sub_le' (abs_add_le' m1 m2) m3).trans ?_
  norm_num

theorem phase_match (p a k u β ψ : ℝ) :
    |p * cos (ψ + u) - (a * cos ψ + k * cos (ψ + β))| ≤ |p * cos u - a - k * cos β| + |p * sin u - k * sin β| := by
  have e : p * cos (ψ + u) - (a * cos ψ + k * cos (ψ + β)) =
      (p * cos u - a - k * cos β) * cos ψ - (p * sin u - k * sin β) * sin ψ := by
    rw [cos_add, cos_add]; ring
  rw [e]
  have m1 := abs_mul_le' (le_refl |p * cos u - a - k * cos β|) (abs_cos_le_one ψ)
  have m2 := abs_mul_le' (le_refl |p * sin u - k * sin β|) (abs_sin_le_one ψ)
  exact (abs_sub_le' m1 m2).trans (by simp)

theorem amp_match {p a u ψ : ℝ} : |p * cos (ψ + u) - a * cos ψ| ≤ |p - a| + |a| * |u| := by
  have e : p * cos (ψ + u) - a * cos ψ = (p - a) * cos (ψ + u) + a * (cos (ψ + u) - cos ψ) := by ring
  rw [e]
  have m1 := abs_mul_le' (le_refl |p - a|) (abs_cos_le_one (ψ + u))
  have m2 := abs_mul_le' (le_refl |a|) ((cos_near (ψ + u) ψ).trans (by rw [add_sub_cancel_left]))
  exact (abs_add_le' m1 m2).trans (by simp)

/-- The sum of the leading terms in the two mean arguments. -/
theorem series_ident (e A g : ℝ) :
    cos A * (1 - e * cos g - e ^ 2 * sin g ^ 2) - sin A * (2 * e * sin g + 0.5 * e ^ 2 * (sin g * cos g)) =
      (1 - e ^ 2 / 2) * cos A + e ^ 2 / 8 * cos (A - 2 * g) - 1.5 * e * cos (A - g) + 0.5 * e * cos (A + g) +
        0.375 * e ^ 2 * cos (A + 2 * g) ∧
    sin A * (1 - e * cos g - e ^ 2 * sin g ^ 2) + cos A * (2 * e * sin g + 0.5 * e ^ 2 * (sin g * cos g)) =
      (1 - e ^ 2 / 2) * sin A + e ^ 2 / 8 * sin (A - 2 * g) - 1.5 * e * sin (A - g) + 0.5 * e * sin (A + g) +
        0.375 * e ^ 2 * sin (A + 2 * g) := by
  have h2 : cos (2 * g) = 1 - 2 * sin g ^ 2 := by rw [cos_two_mul, cos_sq']; ring
  constructor
  · rw [cos_sub, cos_sub, cos_add, cos_add, h2, sin_two_mul]; ring
  · rw [sin_sub, sin_sub, sin_add, sin_add, h2, sin_two_mul]; ring

/-! ### The arguments, `T` centuries from J2000 -/

/-- General precession in longitude since J2000. -/
def gp (T : ℝ) : ℝ := (5029.0966 + 1.11113 * T) * T * (π / 648000)
/-- Mean longitude from the equinox of J2000, mean anomaly, eccentricity. -/
def mA (T : ℝ) : ℝ := evpPoly (evpFel 0) (T + 1) - gp T
def mG (T : ℝ) : ℝ := evpPoly (evpFel 1) (T + 1)
def mE (T : ℝ) : ℝ := evpPoly (evpSel 0) (T + 1)

theorem gp_near {T : ℝ} (hT : |T| ≤ 1) : |gp T - (0.02438174835 * T + 5.38692e-6 * T ^ 2)| ≤ 1e-9 := by
  have p1 := pi_gt_d20
  have p2 := pi_lt_d20
  have t2 : |T ^ 2| ≤ 1 := by rw [abs_pow]; exact pow_le_one₀ (abs_nonneg _) hT
  have e : gp T - (0.02438174835 * T + 5.38692e-6 * T ^ 2) =
      (5029.0966 * (π / 648000) - 0.02438174835) * T + (1.11113 * (π / 648000) - 5.38692e-6) * T ^ 2 := by
    rw [gp]; ring
  rw [e]
  have k1 : |5029.0966 * (π / 648000) - 0.02438174835| ≤ 1e-10 := by
    rw [abs_le]; constructor <;> linarith
  have k2 : |1.11113 * (π / 648000) - 5.38692e-6| ≤ 1e-10 := by
    rw [abs_le]; constructor <;> linarith
  exact (abs_add_le' (abs_mul_le' k1 hT) (abs_mul_le' k2 t2)).trans (by norm_num)

theorem mE_eq (T : ℝ) : mE T = 0.0167091181584 - 4.20478932e-5 * T - 1.260516e-7 * T ^ 2 := by
  simp only [mE, evpPoly, evpSel, Matrix.cons_val_zero, Matrix.cons_val_one, Matrix.cons_val]; ring

/-- Differences of the arguments from those of the terms of `epv`, and the longitude of the perihelion less a quarter turn. -/
def ηx (T : ℝ) : ℝ := mA T - 200 * π - (1.753485171504 + 6.283075850446 * (100 * T))
def ηy (T : ℝ) : ℝ := mA T - 200 * π - π / 2 - (0.1826583913846 + 6.283075850446 * (100 * T))
def vP (T : ℝ) : ℝ := mA T - mG T + 3 * π / 2
def ux (T : ℝ) : ℝ := mA T + mG T - 402 * π - (1.710344404582 + 12.56615170089 * (100 * T))
def uy (T : ℝ) : ℝ := mA T + mG T - 402 * π - π / 2 - (0.1395277998680 + 12.56615170089 * (100 * T))
def wx (T : ℝ) : ℝ := mA T + 2 * mG T - 604 * π - (1.667225416770 + 18.84922755134 * (100 * T))
def wy (T : ℝ) : ℝ := mA T + 2 * mG T - 604 * π - π / 2 - (0.09641423109763 + 18.84922755134 * (100 * T))

theorem slow_args {T : ℝ} (hT : |T| ≤ 1) :
    |ηx T - (-2.4319e-5 - 5.243e-6 * T)| ≤ 1.2e-7 ∧ |ηy T - (6.134e-6 - 5.243e-6 * T)| ≤ 1.2e-7 ∧
    |vP T - (0.225853842 + 0.005639311 * T)| ≤ 2.6e-6 ∧
    |ux T - (-7.28684e-5 - 0.0056497965 * T)| ≤ 2.8e-6 ∧ |uy T - (-5.25905e-5 - 0.0056497965 * T)| ≤ 2.8e-6 ∧
    |wx T| ≤ 0.0115 ∧ |wy T| ≤ 0.0115 := by
  have p1 := pi_gt_d20
  have p2 := pi_lt_d20
  have hg := gp_near hT
  have t0 : 0 ≤ T ^ 2 := sq_nonneg T
  have t2 : T ^ 2 ≤ 1 := by rw [← sq_abs]; exact pow_le_one₀ (abs_nonneg _) hT
  have eA : mA T = 630.07199157051 + 628.33196155011 * T + 5.2796e-6 * T ^ 2 - gp T := by
    simp only [mA, evpPoly, evpFel, Matrix.cons_val_zero, Matrix.cons_val_one, Matrix.cons_val]; ring
  have eG : mG T = 634.55852670874 + 628.30194049074 * T - 2.6180e-6 * T ^ 2 := by
    simp only [mG, evpPoly, evpFel, Matrix.cons_val_zero, Matrix.cons_val_one, Matrix.cons_val]; ring
  simp only [ηx, ηy, vP, ux, uy, wx, wy, eA, eG]
  clear eA eG
  generalize T ^ 2 = x at *
  generalize gp T = q at *
  obtain ⟨h1, h2⟩ := abs_le.mp hT
  obtain ⟨h3, h4⟩ := abs_le.mp hg
  clear hT hg
  norm_num at *
  refine ⟨?_, ?_, ?_, ?_, ?_, ?_, ?_⟩ <;> rw [abs_le] <;> constructor <;> linarith

theorem mE_range {T : ℝ} (hT : |T| ≤ 1) : 0.01666 ≤ mE T ∧ mE T ≤ 0.01676 ∧ |mE T - (0.0167091181584 - 4.20478932e-5 * T)| ≤ 1.27e-7 := by
  have t0 : 0 ≤ T ^ 2 := sq_nonneg T
  have t2 : T ^ 2 ≤ 1 := by rw [← sq_abs]; exact pow_le_one₀ (abs_nonneg _) hT
  obtain ⟨h1, h2⟩ := abs_le.mp hT
  rw [mE_eq]
  refine ⟨by linarith, by linarith, ?_⟩
  rw [abs_le]; constructor <;> linarith

/-! ### Constants -/

/-- Sine and cosine of the longitude of the perihelion. -/
theorem peri_cs {T : ℝ} (hT : |T| ≤ 1) : |sin (vP T) - (0.2239337 + 0.0054961 * T)| ≤ 1.4e-5 ∧
    |cos (vP T) - (0.9746030 - 0.0012629 * T)| ≤ 2.5e-5 ∧
    |sin (2 * vP T) - 0.436| ≤ 0.02 ∧ |cos (2 * vP T) - 0.9| ≤ 0.016 := by
  obtain ⟨-, -, hv, -⟩ := slow_args hT
  generalize vP T = v at *
  obtain ⟨h1, h2⟩ := abs_le.mp hT
  -- at J2000
  have s0 := sin_bound (x := 0.225853842) (by rw [abs_of_nonneg] <;> norm_num)
  have s1 := sin_bound (x := 0.112926921) (by rw [abs_of_nonneg] <;> norm_num)
  rw [abs_of_nonneg (by norm_num : (0 : ℝ) ≤ 0.225853842)] at s0
  rw [abs_of_nonneg (by norm_num : (0 : ℝ) ≤ 0.112926921)] at s1
  have c0 : cos 0.225853842 = 1 - 2 * sin 0.112926921 ^ 2 := by
    rw [show (0.225853842 : ℝ) = 2 * 0.112926921 by norm_num, cos_two_mul, cos_sq']; ring
  have S0 : |sin 0.225853842 - 0.2239337| ≤ 7e-6 := by
    norm_num at s0 ⊢; rw [abs_le] at *; constructor <;> linarith
  have S1 : |sin 0.112926921 - 0.1126869| ≤ 3e-7 := by
    norm_num at s1 ⊢; rw [abs_le] at *; constructor <;> linarith
  have C0 : |cos 0.225853842 - 0.9746033| ≤ 5e-7 := by
    rw [c0]
    obtain ⟨a, b⟩ := abs_le.mp S1
    generalize sin 0.112926921 = s at *
    rw [abs_le]; constructor <;> nlinarith
  obtain ⟨x, hx⟩ : ∃ x, x = v - 0.225853842 := ⟨_, rfl⟩
  have hxT : |x - 0.005639311 * T| ≤ 2.6e-6 := by
    rw [hx, show v - 0.225853842 - 0.005639311 * T = v - (0.225853842 + 0.005639311 * T) by ring]; exact hv
  have hxb : |x| ≤ 0.005642 := by rw [abs_le] at *; constructor <;> linarith
  have cx := cos_small hxb
  have sx : |sin x - x| ≤ 4e-8 := by
    have k := sin_bound (hxb.trans (by norm_num : (0.005642 : ℝ) ≤ 1))
    have q5 : |x| ^ 5 ≤ 1e-11 := (pow_le_pow_left₀ (abs_nonneg _) hxb 5).trans (by norm_num)
    have q3 : |x ^ 3| ≤ 1.8e-7 := by rw [abs_pow]; exact (pow_le_pow_left₀ (abs_nonneg _) hxb 3).trans (by norm_num)
    rw [abs_le] at k q3 ⊢; constructor <;> linarith
  have sxT : |sin x - 0.005639311 * T| ≤ 2.64e-6 := by rw [abs_le] at *; constructor <;> linarith
  have sxb : |sin x| ≤ 0.005643 := by rw [abs_le] at *; constructor <;> linarith
  have ev : v = 0.225853842 + x := by rw [hx]; ring
  have hv2 : |2 * v - 0.4517| ≤ 0.0114 := by rw [ev]; rw [abs_le] at *; constructor <;> linarith
  refine ⟨?_, ?_, ?_, ?_⟩
  · rw [ev, sin_add]
    have e : sin 0.225853842 * cos x + cos 0.225853842 * sin x - (0.2239337 + 0.0054961 * T) =
        (sin 0.225853842 - 0.2239337) * cos x + 0.2239337 * (cos x - 1) + (cos 0.225853842 - 0.9746033) * sin x +
        0.9746033 * (sin x - 0.005639311 * T) + (0.9746033 * 0.005639311 - 0.0054961) * T := by ring
    rw [e]
    have m1 := abs_mul_le' S0 (abs_cos_le_one x)
    have m3 := abs_mul_le' C0 sxb
    generalize (sin 0.225853842 - 0.2239337) * cos x = y1 at *
    generalize (cos 0.225853842 - 0.9746033) * sin x = y2 at *
    clear * - m1 m3 cx sxT h1 h2
    rw [abs_le] at *; norm_num at *; constructor <;> linarith
  · rw [ev, cos_add]
    have e : cos 0.225853842 * cos x - sin 0.225853842 * sin x - (0.9746030 - 0.0012629 * T) =
        (cos 0.225853842 - 0.9746033) * cos x + 0.9746033 * (cos x - 1) + 3e-7 - (sin 0.225853842 - 0.2239337) * sin x -
        0.2239337 * (sin x - 0.005639311 * T) - (0.2239337 * 0.005639311 - 0.0012629) * T := by ring
    rw [e]
    have m1 := abs_mul_le' C0 (abs_cos_le_one x)
    have m3 := abs_mul_le' S0 sxb
    generalize (cos 0.225853842 - 0.9746033) * cos x = y1 at *
    generalize (sin 0.225853842 - 0.2239337) * sin x = y2 at *
    clear * - m1 m3 cx sxT h1 h2
    rw [abs_le] at *; norm_num at *; constructor <;> linarith
  · have k := sin_near (2 * v) 0.4517
    have s2 := sin_bound (x := 0.4517) (by rw [abs_of_nonneg] <;> norm_num)
    rw [abs_of_nonneg (by norm_num : (0 : ℝ) ≤ 0.4517)] at s2
    have k' := k.trans hv2
    clear * - k' s2
    norm_num at *; rw [abs_le] at *; constructor <;> linarith
  · have k := cos_near (2 * v) 0.4517
    have s2 := cos_bound (x := 0.4517) (by rw [abs_of_nonneg] <;> norm_num)
    rw [abs_of_nonneg (by norm_num : (0 : ℝ) ≤ 0.4517)] at s2
    have k' := k.trans hv2
    clear * - k' s2
    norm_num at *; rw [abs_le] at *; constructor <;> linarith

theorem beta_cs {β : ℝ} (h : |β - 4.2923| ≤ 3e-5) : |cos β + 0.4079| ≤ 4e-4 ∧ |sin β + 0.913| ≤ 3e-3 := by
  have p1 := pi_gt_d6
  have p2 := pi_lt_d6
  obtain ⟨x, hx⟩ : ∃ x, x = 3 * π / 2 - β := ⟨_, rfl⟩
  have hxb : |x - 0.42009| ≤ 4e-5 := by rw [hx]; rw [abs_le] at *; constructor <;> linarith
  have e : β = (π / 2 - x) + π := by rw [hx]; ring
  have s2 := sin_bound (x := 0.42009) (by rw [abs_of_nonneg] <;> norm_num)
  have c2 := cos_bound (x := 0.42009) (by rw [abs_of_nonneg] <;> norm_num)
  rw [abs_of_nonneg (by norm_num : (0 : ℝ) ≤ 0.42009)] at s2 c2
  have k1 := (sin_near x 0.42009).trans hxb
  have k2 := (cos_near x 0.42009).trans hxb
  rw [e, cos_add_pi, sin_add_pi, cos_pi_div_two_sub, sin_pi_div_two_sub]
  clear * - s2 c2 k1 k2
  norm_num at *
  constructor
  · rw [abs_le] at *; constructor <;> linarith
  · rw [abs_le] at *; constructor <;> linarith

theorem two_pi_mul (x : ℝ) (n : ℤ) : cos (x + n * (2 * π)) = cos x := Real.cos_add_int_mul_two_pi x n

/-! ### Term by term -/

theorem e2_range {T : ℝ} (hT : |T| ≤ 1) : 2.7755e-4 ≤ mE T ^ 2 ∧ mE T ^ 2 ≤ 2.809e-4 := by
  obtain ⟨h1, h2, -⟩ := mE_range hT
  constructor <;> nlinarith

/-- The annual terms. -/
theorem annual {T : ℝ} (hT : |T| ≤ 1) :
    |(1 - mE T ^ 2 / 2) * cos (mA T) + mE T ^ 2 / 8 * cos (mA T - 2 * mG T) -
      0.9998292878132 * cos (1.753485171504 + 6.283075850446 * (100 * T))| ≤ 1.8e-5 ∧
    |(1 - mE T ^ 2 / 2) * sin (mA T) + mE T ^ 2 / 8 * sin (mA T - 2 * mG T) -
      0.9998921098898 * cos (0.1826583913846 + 6.283075850446 * (100 * T))| ≤ 1.8e-5 := by
  obtain ⟨e1, e2⟩ := e2_range hT
  obtain ⟨hx, hy, -⟩ := slow_args hT
  obtain ⟨-, -, hs, hc⟩ := peri_cs hT
  obtain ⟨h1, h2⟩ := abs_le.mp hT
  have eg : mA T - 2 * mG T = 2 * vP T - mA T - π + (-1 : ℤ) * (2 * π) := by rw [vP]; push_cast; ring
  have hxA : mA T = 1.753485171504 + 6.283075850446 * (100 * T) + ηx T + (100 : ℤ) * (2 * π) := by rw [ηx]; push_cast; ring
  have hyA : mA T = 0.1826583913846 + 6.283075850446 * (100 * T) + ηy T + π / 2 + (100 : ℤ) * (2 * π) := by rw [ηy]; push_cast; ring
  have c1 : cos (mA T - 2 * mG T) = -(cos (2 * vP T) * cos (mA T) + sin (2 * vP T) * sin (mA T)) := by
    rw [eg, cos_add_int_mul_two_pi, cos_sub_pi, cos_sub]
  have s1 : sin (mA T - 2 * mG T) = -(sin (2 * vP T) * cos (mA T) - cos (2 * vP T) * sin (mA T)) := by
    rw [eg, sin_add_int_mul_two_pi, sin_sub_pi, sin_sub]
  rw [c1, s1]
  clear c1 s1 eg
  generalize cos (2 * vP T) = C at *
  generalize sin (2 * vP T) = S at *
  generalize mE T ^ 2 = q at *
  obtain ⟨C1, C2⟩ := abs_le.mp hc
  obtain ⟨S1, S2⟩ := abs_le.mp hs
  have qc1 : q * C ≤ 2.809e-4 * 0.916 := by nlinarith
  have qc2 : 2.7755e-4 * 0.884 ≤ q * C := by nlinarith
  have qs1 : q * S ≤ 2.809e-4 * 0.456 := by nlinarith
  have qs2 : 2.7755e-4 * 0.416 ≤ q * S := by nlinarith
  constructor
  · have hηb : |ηx T| ≤ 4e-5 := by rw [abs_le] at *; constructor <;> linarith
    have hcA : cos (mA T) = cos (1.753485171504 + 6.283075850446 * (100 * T) + ηx T) := by
      rw [hxA, cos_add_int_mul_two_pi]
    have hsA : sin (mA T) = sin (1.753485171504 + 6.283075850446 * (100 * T) + ηx T) := by
      rw [hxA, sin_add_int_mul_two_pi]
    rw [hcA, hsA]
    generalize 1.753485171504 + 6.283075850446 * (100 * T) = θ at *
    have k := lin_match (α := 1 - q / 2 - q * C / 8) (β := -(q * S / 8)) (a := 0.9998292878132) (η := ηx T) (θ := θ)
      (by rw [abs_of_nonneg] <;> norm_num) hηb
    have e : (1 - q / 2) * cos (θ + ηx T) + q / 8 * -(C * cos (θ + ηx T) + S * sin (θ + ηx T)) - 0.9998292878132 * cos θ =
      (1 - q / 2 - q * C / 8) * cos (θ + ηx T) + -(q * S / 8) * sin (θ + ηx T) - 0.9998292878132 * cos θ := by ring
    rw [e]
    refine k.trans ?_
    have m1 : |1 - q / 2 - q * C / 8 - 0.9998292878132| ≤ 2.3e-6 := by rw [abs_le]; constructor <;> linarith
    have m2 : |-(q * S / 8) - 0.9998292878132 * ηx T| ≤ 1.55e-5 := by
      rw [abs_le] at hx; rw [abs_le]; constructor <;> linarith
    linarith
  · have hηb : |ηy T| ≤ 4e-5 := by rw [abs_le] at *; constructor <;> linarith
    have hcA : cos (mA T) = -sin (0.1826583913846 + 6.283075850446 * (100 * T) + ηy T) := by
      rw [hyA, cos_add_int_mul_two_pi, cos_add_pi_div_two]
    have hsA : sin (mA T) = cos (0.1826583913846 + 6.283075850446 * (100 * T) + ηy T) := by
      rw [hyA, sin_add_int_mul_two_pi, sin_add_pi_div_two]
    rw [hcA, hsA]
    generalize 0.1826583913846 + 6.283075850446 * (100 * T) = θ at *
    have k := lin_match (α := 1 - q / 2 + q * C / 8) (β := q * S / 8) (a := 0.9998921098898) (η := ηy T) (θ := θ)
      (by rw [abs_of_nonneg] <;> norm_num) hηb
    have e : (1 - q / 2) * cos (θ + ηy T) + q / 8 * -(S * -sin (θ + ηy T) - C * cos (θ + ηy T)) - 0.9998921098898 * cos θ =
      (1 - q / 2 + q * C / 8) * cos (θ + ηy T) + q * S / 8 * sin (θ + ηy T) - 0.9998921098898 * cos θ := by ring
    rw [e]
    refine k.trans ?_
    have m1 : |1 - q / 2 + q * C / 8 - 0.9998921098898| ≤ 2.3e-6 := by rw [abs_le]; constructor <;> linarith
    have m2 : |q * S / 8 - 0.9998921098898 * ηy T| ≤ 1.56e-5 := by
      rw [abs_le] at hy; rw [abs_le]; constructor <;> linarith
    linarith

/-- The constant terms. -/
theorem constant {T : ℝ} (hT : |T| ≤ 1) :
    |-(1.5 * mE T * cos (mA T - mG T)) - (0.005611445335148 + 100 * T * 1.234046326004e-6)| ≤ 2.5e-6 ∧
    |-(1.5 * mE T * sin (mA T - mG T)) - (-0.02442700893735 + 100 * T * 9.304690546528e-7)| ≤ 2e-6 := by
  obtain ⟨e1, e2, e3⟩ := mE_range hT
  obtain ⟨hs, hc, -⟩ := peri_cs hT
  obtain ⟨h1, h2⟩ := abs_le.mp hT
  have t0 : 0 ≤ T ^ 2 := sq_nonneg T
  have t2 : T ^ 2 ≤ 1 := by rw [← sq_abs]; exact pow_le_one₀ (abs_nonneg _) hT
  have ev : mA T - mG T = vP T - π / 2 - π := by rw [vP]; ring
  have ea : |1.5 * mE T| ≤ 0.02514 := by rw [abs_of_nonneg] <;> linarith
  rw [ev, cos_sub_pi, sin_sub_pi, cos_sub_pi_div_two, sin_sub_pi_div_two]
  constructor
  · have m1 := abs_mul_le' ea hs
    have sb : |0.2239337 + 0.0054961 * T| ≤ 0.23 := by rw [abs_le]; constructor <;> linarith
    have m2 := abs_mul_le' e3 sb
    have e : -(1.5 * mE T * -sin (vP T)) - (0.005611445335148 + 100 * T * 1.234046326004e-6) =
        1.5 * mE T * (sin (vP T) - (0.2239337 + 0.0054961 * T)) +
        1.5 * ((mE T - (0.0167091181584 - 4.20478932e-5 * T)) * (0.2239337 + 0.0054961 * T)) +
        (1.5 * 0.0167091181584 * 0.2239337 - 0.005611445335148 + (1.5 * 0.0167091181584 * 0.0054961 -
          1.5 * 4.20478932e-5 * 0.2239337 - 1.234046326004e-4) * T - 1.5 * 4.20478932e-5 * 0.0054961 * T ^ 2) := by ring
    rw [e]
    generalize 1.5 * mE T * (sin (vP T) - (0.2239337 + 0.0054961 * T)) = y at *
    generalize (mE T - (0.0167091181584 - 4.20478932e-5 * T)) * (0.2239337 + 0.0054961 * T) = z at *
    generalize T ^ 2 = w at *
    clear * - m1 m2 h1 h2 t0 t2
    rw [abs_le] at *; norm_num at *; constructor <;> linarith
  · have m1 := abs_mul_le' ea hc
    have sb : |0.9746030 - 0.0012629 * T| ≤ 0.98 := by rw [abs_le]; constructor <;> linarith
    have m2 := abs_mul_le' e3 sb
    have e : -(1.5 * mE T * - -cos (vP T)) - (-0.02442700893735 + 100 * T * 9.304690546528e-7) =
        -(1.5 * mE T * (cos (vP T) - (0.9746030 - 0.0012629 * T))) -
        1.5 * ((mE T - (0.0167091181584 - 4.20478932e-5 * T)) * (0.9746030 - 0.0012629 * T)) +
        (-(1.5 * 0.0167091181584 * 0.9746030) + 0.02442700893735 + (1.5 * 0.0167091181584 * 0.0012629 +
          1.5 * 4.20478932e-5 * 0.9746030 - 9.304690546528e-5) * T - 1.5 * 4.20478932e-5 * 0.0012629 * T ^ 2) := by ring
    rw [e]
    generalize 1.5 * mE T * (cos (vP T) - (0.9746030 - 0.0012629 * T)) = y at *
    generalize (mE T - (0.0167091181584 - 4.20478932e-5 * T)) * (0.9746030 - 0.0012629 * T) = z at *
    generalize T ^ 2 = w at *
    clear * - m1 m2 h1 h2 t0 t2
    rw [abs_le] at *; norm_num at *; constructor <;> linarith

/-- The semi-annual terms. -/
theorem semi_bound {T u a k β : ℝ} (hT : |T| ≤ 1) (ha : |a - 0.00835275| ≤ 2e-7) (hk : |k - 5.1504e-5| ≤ 4e-9)
    (hu : |u - (-6.27e-5 - 0.0056497965 * T)| ≤ 1.4e-5) (hβ : |β - 4.2923| ≤ 3e-5) :
    |0.5 * mE T * cos u - a - T * k * cos β| + |0.5 * mE T * sin u - T * k * sin β| ≤ 3.5e-6 := by
  obtain ⟨e1, e2, e3⟩ := mE_range hT
  obtain ⟨bc, bs⟩ := beta_cs hβ
  obtain ⟨h1, h2⟩ := abs_le.mp hT
  have hub : |u| ≤ 0.00573 := by rw [abs_le] at *; constructor <;> linarith
  have cu := cos_small hub
  have su : |sin u - u| ≤ 4e-8 := by
    have k := sin_bound (hub.trans (by norm_num : (0.00573 : ℝ) ≤ 1))
    have q5 : |u| ^ 5 ≤ 1e-11 := (pow_le_pow_left₀ (abs_nonneg _) hub 5).trans (by norm_num)
    have q3 : |u ^ 3| ≤ 1.9e-7 := by rw [abs_pow]; exact (pow_le_pow_left₀ (abs_nonneg _) hub 3).trans (by norm_num)
    rw [abs_le] at k q3 ⊢; constructor <;> linarith
  have ea : |0.5 * mE T| ≤ 0.00838 := by rw [abs_of_nonneg] <;> linarith
  have kb : |T * k| ≤ 5.16e-5 := by
    refine (abs_mul_le' (Y := 5.16e-5) hT ?_).trans (by norm_num)
    rw [abs_le] at *; constructor <;> linarith
  have m1 := abs_mul_le' ea cu
  have m2 := abs_mul_le' kb bc
  have m3 := abs_mul_le' ea su
  have m4 := abs_mul_le' kb bs
  have m5 := abs_mul_le' hT hk
  have m6 := abs_mul_le' ea hu
  have vb : |-6.27e-5 - 0.0056497965 * T| ≤ 0.00572 := by rw [abs_le]; constructor <;> linarith
  have m7 := abs_mul_le' e3 vb
  have t0 : 0 ≤ T ^ 2 := sq_nonneg T
  have t2 : T ^ 2 ≤ 1 := by rw [← sq_abs]; exact pow_le_one₀ (abs_nonneg _) hT
  have k1 : |0.5 * mE T * cos u - a - T * k * cos β| ≤ 2.4e-6 := by
    have e : 0.5 * mE T * cos u - a - T * k * cos β = 0.5 * mE T * (cos u - 1) - T * k * (cos β + 0.4079) +
      0.5 * (mE T - (0.0167091181584 - 4.20478932e-5 * T)) - (a - 0.00835275) + 0.4079 * (T * (k - 5.1504e-5)) +
      (0.5 * 0.0167091181584 - 0.00835275) + (0.4079 * 5.1504e-5 - 0.5 * 4.20478932e-5) * T := by ring
    rw [e]
    generalize 0.5 * mE T * (cos u - 1) = x1 at *
    generalize T * k * (cos β + 0.4079) = x2 at *
    generalize T * (k - 5.1504e-5) = x3 at *
    clear * - m1 m2 m5 e3 ha h1 h2
    rw [abs_le] at *; norm_num at *; constructor <;> linarith
  have k2 : |0.5 * mE T * sin u - T * k * sin β| ≤ 1.1e-6 := by
    have e : 0.5 * mE T * sin u - T * k * sin β = 0.5 * mE T * (sin u - u) + 0.5 * mE T * (u - (-6.27e-5 - 0.0056497965 * T)) +
      0.5 * ((mE T - (0.0167091181584 - 4.20478932e-5 * T)) * (-6.27e-5 - 0.0056497965 * T)) - T * k * (sin β + 0.913) +
      0.913 * (T * (k - 5.1504e-5)) + 0.5 * 0.0167091181584 * -6.27e-5 +
      (0.913 * 5.1504e-5 - 0.5 * 0.0167091181584 * 0.0056497965 + 0.5 * 4.20478932e-5 * 6.27e-5) * T +
      0.5 * 4.20478932e-5 * 0.0056497965 * T ^ 2 := by ring
    rw [e]
    generalize 0.5 * mE T * (sin u - u) = x1 at *
    generalize 0.5 * mE T * (u - (-6.27e-5 - 0.0056497965 * T)) = x2 at *
    generalize (mE T - (0.0167091181584 - 4.20478932e-5 * T)) * (-6.27e-5 - 0.0056497965 * T) = x4 at *
    generalize T * k * (sin β + 0.913) = x5 at *
    generalize T * (k - 5.1504e-5) = x3 at *
    generalize T ^ 2 = w at *
    clear * - m3 m4 m5 m6 m7 h1 h2 t0 t2
    rw [abs_le] at *; norm_num at *; constructor <;> linarith
  linarith

theorem semiannual {T : ℝ} (hT : |T| ≤ 1) :
    |0.5 * mE T * cos (mA T + mG T) - (0.008352579567414 * cos (1.710344404582 + 12.56615170089 * (100 * T)) +
      100 * T * (5.150068824701e-7 * cos (6.002664557501 + 12.56615170089 * (100 * T))))| ≤ 3.5e-6 ∧
    |0.5 * mE T * sin (mA T + mG T) - (0.008352929742915 * cos (0.1395277998680 + 12.56615170089 * (100 * T)) +
      100 * T * (5.150715570663e-7 * cos (4.431807116294 + 12.56615170089 * (100 * T))))| ≤ 3.5e-6 := by
  obtain ⟨-, -, -, hx, hy, -⟩ := slow_args hT
  obtain ⟨h1, h2⟩ := abs_le.mp hT
  constructor
  · have eA : mA T + mG T = 1.710344404582 + 12.56615170089 * (100 * T) + ux T + (201 : ℤ) * (2 * π) := by rw [ux]; push_cast; ring
    have k := phase_match (0.5 * mE T) 0.008352579567414 (T * 5.150068824701e-5) (ux T) (6.002664557501 - 1.710344404582)
      (1.710344404582 + 12.56615170089 * (100 * T))
    rw [eA, cos_add_int_mul_two_pi]
    rw [show 1.710344404582 + 12.56615170089 * (100 * T) + (6.002664557501 - 1.710344404582) =
      6.002664557501 + 12.56615170089 * (100 * T) by ring] at k
    rw [show 100 * T * (5.150068824701e-7 * cos (6.002664557501 + 12.56615170089 * (100 * T))) =
      T * 5.150068824701e-5 * cos (6.002664557501 + 12.56615170089 * (100 * T)) by ring]
    refine k.trans (semi_bound hT ?_ ?_ ?_ ?_)
    · rw [abs_le]; constructor <;> norm_num
    · rw [abs_le]; constructor <;> norm_num
    · rw [abs_le] at *; constructor <;> linarith
    · rw [abs_le]; constructor <;> norm_num
  · have eA : mA T + mG T = 0.1395277998680 + 12.56615170089 * (100 * T) + uy T + π / 2 + (201 : ℤ) * (2 * π) := by rw [uy]; push_cast; ring
    have k := phase_match (0.5 * mE T) 0.008352929742915 (T * 5.150715570663e-5) (uy T) (4.431807116294 - 0.1395277998680)
      (0.1395277998680 + 12.56615170089 * (100 * T))
    rw [eA, sin_add_int_mul_two_pi, sin_add_pi_div_two]
    rw [show 0.1395277998680 + 12.56615170089 * (100 * T) + (4.431807116294 - 0.1395277998680) =
      4.431807116294 + 12.56615170089 * (100 * T) by ring] at k
    rw [show 100 * T * (5.150715570663e-7 * cos (4.431807116294 + 12.56615170089 * (100 * T))) =
      T * 5.150715570663e-5 * cos (4.431807116294 + 12.56615170089 * (100 * T)) by ring]
    refine k.trans (semi_bound hT ?_ ?_ ?_ ?_)
    · rw [abs_le]; constructor <;> norm_num
    · rw [abs_le]; constructor <;> norm_num
    · rw [abs_le] at *; constructor <;> linarith
    · rw [abs_le]; constructor <;> norm_num

/-- The terms of a third of a year. -/
theorem third {T : ℝ} (hT : |T| ≤ 1) :
    |0.375 * mE T ^ 2 * cos (mA T + 2 * mG T) - 1.046664295572e-4 * cos (1.667225416770 + 18.84922755134 * (100 * T))| ≤ 2.2e-6 ∧
    |0.375 * mE T ^ 2 * sin (mA T + 2 * mG T) - 1.046697300177e-4 * cos (0.09641423109763 + 18.84922755134 * (100 * T))| ≤ 2.2e-6 := by
  obtain ⟨-, -, -, -, -, hx, hy⟩ := slow_args hT
  obtain ⟨e1, e2⟩ := e2_range hT
  constructor
  · have eA : mA T + 2 * mG T = 1.667225416770 + 18.84922755134 * (100 * T) + wx T + (302 : ℤ) * (2 * π) := by rw [wx]; push_cast; ring
    rw [eA, cos_add_int_mul_two_pi]
    refine amp_match.trans ?_
    have k1 : |0.375 * mE T ^ 2 - 1.046664295572e-4| ≤ 8e-7 := by rw [abs_le]; constructor <;> linarith
    rw [abs_of_nonneg (by norm_num : (0 : ℝ) ≤ 1.046664295572e-4)]
    linarith
  · have eA : mA T + 2 * mG T = 0.09641423109763 + 18.84922755134 * (100 * T) + wy T + π / 2 + (302 : ℤ) * (2 * π) := by
      rw [wy]; push_cast; ring
    rw [eA, sin_add_int_mul_two_pi, sin_add_pi_div_two]
    refine amp_match.trans ?_
    have k1 : |0.375 * mE T ^ 2 - 1.046697300177e-4| ≤ 8e-7 := by rw [abs_le]; constructor <;> linarith
    rw [abs_of_nonneg (by norm_num : (0 : ℝ) ≤ 1.046697300177e-4)]
    linarith

end Sla.EvpL
