import Verif.Model.FpRandom
import Verif.Lemmas.FpErr
import Verif.Lemmas.FpErr64
import Verif.Lemmas.CMath
import Mathlib.Analysis.SpecialFunctions.Pow.Real
import Mathlib.Analysis.SpecialFunctions.Log.Base
import Mathlib.Analysis.Complex.ExponentialBounds

/-
Property theorems C136: seeding of the uniform random numbers in floating point.
-/
namespace Sla.Props
open Sla.Fp

private theorem ten_half : (10 : ℝ) ^ (1 / 2 : ℝ) < 3.1623 ∧ (3.1622 : ℝ) < (10 : ℝ) ^ (1 / 2 : ℝ) := by
  rw [← Real.sqrt_eq_rpow]
  constructor
  · rw [Real.sqrt_lt' (by norm_num)]; norm_num
  · rw [Real.lt_sqrt (by norm_num)]; norm_num

private theorem ten_small : (10 : ℝ) ^ (1e-5 : ℝ) ≤ 1.00003 := by
  rw [Real.rpow_def_of_pos (by norm_num)]
  have h1 : Real.log 10 ≤ 2.8 := by
    have h2 : Real.log 10 ≤ Real.log (2 ^ 4) := Real.log_le_log (by norm_num) (by norm_num)
    rw [Real.log_pow] at h2
    have := Real.log_two_lt_d9
    norm_num at h2 this ⊢; linarith
  have h3 : Real.log 10 * 1e-5 ≤ 2.8e-5 := by norm_num at h1 ⊢; linarith
  refine (Real.exp_le_exp.2 h3).trans ?_
  have h4 := Real.exp_bound_div_one_sub_of_interval (x := 2.8e-5) (by norm_num) (by norm_num)
  exact h4.trans (by norm_num)

/-- A number scaled by the power of ten next to it, where the exponent may be off by 1e-5 before it is rounded. -/
private theorem scaled {a l : ℝ} (ha : 0 < a) (hl : |l - Real.logb 10 a| ≤ 1e-5) :
    316210.5 ≤ a / (10 : ℝ) ^ (cround l - 6) ∧ a / (10 : ℝ) ^ (cround l - 6) ≤ 3162395 := by
  have hn := abs_le.1 (abs_cround_sub_le l)
  have hl' := abs_le.1 hl
  generalize cround l = n at *
  have haL : (10 : ℝ) ^ Real.logb 10 a = a := Real.rpow_logb (by norm_num) (by norm_num) ha
  generalize Real.logb 10 a = L at *
  have hq : a / (10 : ℝ) ^ (n - 6) = (10 : ℝ) ^ (L - n) * 10 ^ 6 := by
    rw [← haL, ← Real.rpow_intCast, ← Real.rpow_sub (by norm_num), ← Real.rpow_natCast, ← Real.rpow_add (by norm_num)]
    congr 1; push_cast; ring
  have up : (10 : ℝ) ^ (L - n) ≤ 10 ^ (1 / 2 : ℝ) * 10 ^ (1e-5 : ℝ) := by
    rw [← Real.rpow_add (by norm_num)]
    exact Real.rpow_le_rpow_of_exponent_le (by norm_num) (by linarith [hn.1, hl'.1])
  have lo : (10 : ℝ) ^ (1 / 2 : ℝ) / 10 ≤ (10 : ℝ) ^ (L - n) * 10 ^ (1e-5 : ℝ) := by
    have inv : (10 : ℝ) ^ (1 / 2 : ℝ) / 10 = (10 : ℝ) ^ (-(1 / 2) : ℝ) := by
      rw [div_eq_iff (by norm_num)]
      nth_rw 3 [show (10 : ℝ) = (10 : ℝ) ^ (1 : ℝ) by simp]
      rw [← Real.rpow_add (by norm_num)]
      norm_num
    rw [inv, ← Real.rpow_add (by norm_num)]
    exact Real.rpow_le_rpow_of_exponent_le (by norm_num) (by linarith [hn.2, hl'.2])
  obtain ⟨s1, s2⟩ := ten_half
  have s3 := ten_small
  have p0 : (0 : ℝ) < 10 ^ (L - n) := Real.rpow_pos_of_pos (by norm_num) _
  have p1 : (10 : ℝ) ^ (L - n) * 10 ^ (1e-5 : ℝ) ≤ (10 : ℝ) ^ (L - n) * 1.00003 := mul_le_mul_of_nonneg_left s3 p0.le
  have p2 : (10 : ℝ) ^ (1 / 2 : ℝ) * 10 ^ (1e-5 : ℝ) ≤ 3.1623 * 1.00003 :=
    mul_le_mul s1.le s3 (Real.rpow_nonneg (by norm_num) _) (by norm_num)
  rw [hq]
  generalize (10 : ℝ) ^ (L - n) = q at *
  generalize (10 : ℝ) ^ (1 / 2 : ℝ) = t at *
  generalize (10 : ℝ) ^ (1e-5 : ℝ) = v at *
  constructor
  · have h1 : t / 10 ≤ q * 1.00003 := lo.trans p1
    norm_num at h1 s2 ⊢; linarith
  · have h1 := up.trans p2
    norm_num at h1 ⊢; linarith

/-- The exponent stays in the range in which the library's power is used. -/
private theorem exponent_range {a l : ℝ} (h1 : 1 ≤ a) (h2 : a ≤ 4e38) (hl : |l - Real.logb 10 a| ≤ 1e-5) : -6 ≤ cround l - 6 ∧ cround l - 6 ≤ 33 := by
  have hl' := abs_le.1 hl
  have hn := abs_le.1 (abs_cround_sub_le l)
  have a0 : 0 < a := lt_of_lt_of_le one_pos h1
  have q1 : 0 ≤ Real.logb 10 a := Real.logb_nonneg (by norm_num) h1
  have q2 : Real.logb 10 a ≤ 39 := by
    rw [Real.logb_le_iff_le_rpow (by norm_num) a0]
    refine h2.trans ?_
    rw [show (39 : ℝ) = ((39 : ℕ) : ℝ) by norm_num, Real.rpow_natCast]
    norm_num
  generalize cround l = n at *
  constructor
  · have : (-1 : ℝ) < n := by have := hn.1; have := hl'.1; norm_num at *; linarith
    have : (-1 : ℤ) < n := by exact_mod_cast this
    omega
  · have : (n : ℝ) < 40 := by have := hn.2; have := hl'.2; norm_num at *; linarith
    have : n < 40 := by exact_mod_cast this
    omega

/-- The computed quotient. -/
private theorem quotient_near (D : Rounding binary64) {a p q : ℝ} (hp : 0 < p) (hq : |q - p| ≤ 1e-15 * p) (h1 : 3e5 ≤ a / p) (h2 : a / p ≤ 4e6) :
    |D (a / q) - a / p| ≤ 1e-8 := by
  have hq' := abs_le.1 hq
  have q0 : 0 < q := by have := hq'.1; norm_num at *; linarith
  have e1 : a / q - a / p = a / p * ((p - q) / q) := by field_simp
  have e2 : |(p - q) / q| ≤ 1.1e-15 := by
    rw [abs_div, abs_of_pos q0, div_le_iff₀ q0, abs_sub_comm]
    refine hq.trans ?_
    have := hq'.1
    norm_num at *; linarith
  have e3 : |a / q - a / p| ≤ 4e6 * 1.1e-15 := by
    rw [e1, abs_mul, abs_of_pos (lt_of_lt_of_le (by norm_num) h1)]
    exact mul_le_mul h2 e2 (abs_nonneg _) (by norm_num)
  have e4 := D.dbl (a / q)
  have e5 : |a / q| ≤ 4.1e6 := by
    have := abs_add_le (a / q - a / p) (a / p)
    rw [sub_add_cancel, abs_of_pos (lt_of_lt_of_le (by norm_num) h1 : 0 < a / p)] at this
    norm_num at *; linarith
  have e6 := abs_sub_le (D (a / q)) (a / q) (a / p)
  norm_num at *; linarith

/-- C136: the integer with which `random` seeds its engine, computed in floating point, is odd, has six or seven digits, and depends only on
    the magnitude of the argument, for every finite argument. -/
theorem C136_seed (S : Rounding binary32) (D : Rounding binary64) {lg10 : ℝ → ℝ} {pw : ℤ → ℝ}
    (hl : ∀ a, 1 ≤ a → a ≤ 4e38 → |lg10 a - Real.logb 10 a| ≤ 1e-5) (hp : ∀ n : ℤ, -6 ≤ n → n ≤ 33 → |pw n - (10 : ℝ) ^ n| ≤ 1e-15 * (10 : ℝ) ^ n)
    {seed : ℝ} (hs : |seed| ≤ 3.5e38) :
    Fp.randomSeed S D lg10 pw seed % 2 = 1 ∧ 316210 ≤ Fp.randomSeed S D lg10 pw seed ∧ Fp.randomSeed S D lg10 pw seed ≤ 3162397 ∧
    Fp.randomSeed S D lg10 pw (-seed) = Fp.randomSeed S D lg10 pw seed := by
  have a1 : 1 ≤ S (|seed| + 1) := S.rep_le (by linarith [abs_nonneg seed]) ⟨1, 0, by norm_num [binary32], by norm_num [binary32], by norm_num⟩
  have a2 : S (|seed| + 1) ≤ 4e38 := by
    have h1 := (abs_le.1 (S.single (|seed| + 1))).2
    rw [abs_of_pos (by positivity : 0 < |seed| + 1)] at h1
    norm_num at h1 hs ⊢; linarith
  refine ⟨?_, ?_, ?_, by simp only [Fp.randomSeed, abs_neg]⟩
  all_goals
    unfold Fp.randomSeed
    dsimp only
    generalize S (|seed| + 1) = a at *
    have h1 := hl a a1 a2
    obtain ⟨r1, r2⟩ := exponent_range a1 a2 h1
    obtain ⟨b1, b2⟩ := scaled (by linarith) h1
    have h2 := hp _ r1 r2
    have h3 := quotient_near D (zpow_pos (by norm_num) _) h2 (le_trans (by norm_num) b1) (b2.trans (by norm_num))
    have h4 := abs_le.1 (abs_cround_sub_le (D (a / pw (cround (lg10 a) - 6))))
    have h5 := abs_le.1 h3
    generalize D (a / pw (cround (lg10 a) - 6)) = q at *
    have c1 : cround q ≤ 3162396 := by
      have : (cround q : ℝ) < 3162397 := by have := h4.2; have := h5.2; norm_num at *; linarith
      have : cround q < 3162397 := by exact_mod_cast this
      omega
    have c2 : 316210 ≤ cround q := by
      have : (316209 : ℝ) < cround q := by have := h4.1; have := h5.1; norm_num at *; linarith
      have : (316209 : ℤ) < cround q := by exact_mod_cast this
      omega
    split_ifs <;> omega

/-- An exact library meets the hypotheses, for instance for the seed 1234567. -/
example (S : Rounding binary32) (D : Rounding binary64) : Fp.randomSeed S D (Real.logb 10) (fun n => (10 : ℝ) ^ n) 1234567 % 2 = 1 :=
  (C136_seed S D (fun a _ _ => by rw [sub_self, abs_zero]; norm_num) (fun n _ _ => by simp only [sub_self, abs_zero]; positivity) (by norm_num)).1

/-- C136: and it differs by at most two from the integer of exact arithmetic, unless the decimal logarithm of the magnitude plus one is within
    2e-5 of half way between two integers, where the power of ten may differ. -/
theorem C136_near (S : Rounding binary32) (D : Rounding binary64) {lg10 : ℝ → ℝ} {pw : ℤ → ℝ}
    (hl : ∀ a, 1 ≤ a → a ≤ 4e38 → |lg10 a - Real.logb 10 a| ≤ 1e-5) (hp : ∀ n : ℤ, -6 ≤ n → n ≤ 33 → |pw n - (10 : ℝ) ^ n| ≤ 1e-15 * (10 : ℝ) ^ n)
    {seed : ℝ} (hs : |seed| ≤ 3.5e38) {n : ℤ} (hn : |Real.logb 10 (|seed| + 1) - n| ≤ 1 / 2 - 2e-5) :
    |Fp.randomSeed S D lg10 pw seed - Sla.randomSeed seed| ≤ 2 := by
  have e0 : 1 ≤ |seed| + 1 := by linarith [abs_nonneg seed]
  have a1 : 1 ≤ S (|seed| + 1) := S.rep_le e0 ⟨1, 0, by norm_num [binary32], by norm_num [binary32], by norm_num⟩
  have hS := S.single (|seed| + 1)
  rw [abs_of_pos (by positivity : 0 < |seed| + 1)] at hS
  have a2 : S (|seed| + 1) ≤ 4e38 := by
    have h1 := (abs_le.1 hS).2
    norm_num at h1 hs ⊢; linarith
  unfold Fp.randomSeed Sla.randomSeed
  dsimp only
  generalize S (|seed| + 1) = a at *
  generalize |seed| + 1 = b at *
  have hab : |a - b| ≤ 6.1e-8 * b := by refine hS.trans ?_; norm_num at *; linarith
  have a0 : 0 < a := by linarith
  have b0 : 0 < b := by linarith
  have lab : |Real.logb 10 a - Real.logb 10 b| ≤ 1e-6 := by
    have l10 : 1 ≤ Real.log 10 := by
      have h2 : Real.log (2 ^ 3) ≤ Real.log 10 := Real.log_le_log (by norm_num) (by norm_num)
      rw [Real.log_pow] at h2
      have := Real.log_two_gt_d9
      norm_num at h2 this ⊢; linarith
    unfold Real.logb
    rw [← sub_div, abs_div, abs_of_pos (by linarith : 0 < Real.log 10)]
    refine (div_le_self (abs_nonneg _) l10).trans ?_
    rw [← Real.log_div a0.ne' b0.ne', abs_le]
    have hab' := abs_le.1 hab
    have u1 : a / b ≤ 1 + 6.1e-8 := by rw [div_le_iff₀ b0]; linarith [hab'.2]
    have u2 : 1 - 6.1e-8 ≤ a / b := by rw [le_div_iff₀ b0]; linarith [hab'.1]
    have u3 : 0 < a / b := div_pos a0 b0
    constructor
    · have h1 := Real.one_sub_inv_le_log_of_pos u3
      have h2 : (a / b)⁻¹ ≤ 1 + 1e-6 := by
        rw [inv_le_comm₀ u3 (by norm_num)]
        exact le_trans (by norm_num) u2
      linarith
    · have h1 := Real.log_le_sub_one_of_pos u3
      norm_num at *; linarith
  have h1 := hl a a1 a2
  have k1 : cround (lg10 a) = n := by
    apply cround_eq_of_abs
    have q1 := abs_sub_le (lg10 a) (Real.logb 10 a) n
    have q2 := abs_sub_le (Real.logb 10 a) (Real.logb 10 b) n
    norm_num at *; linarith
  have k2 : cround (Real.logb 10 b) = n := cround_eq_of_abs (by norm_num at *; linarith)
  obtain ⟨r1, r2⟩ := exponent_range a1 a2 h1
  obtain ⟨b1, b2⟩ := scaled a0 h1
  rw [k1] at r1 r2 b1 b2
  rw [k1, k2]
  have p0 : (0 : ℝ) < 10 ^ (n - 6) := zpow_pos (by norm_num) _
  have h3 := quotient_near D p0 (hp _ r1 r2) (le_trans (by norm_num) b1) (b2.trans (by norm_num))
  have h6 : |a / 10 ^ (n - 6) - b / 10 ^ (n - 6)| ≤ 0.3 := by
    rw [← sub_div, abs_div, abs_of_pos p0]
    rw [div_le_iff₀ p0] at b2 ⊢
    have hab' := abs_le.1 hab
    have : b ≤ 1.0001 * a := by have := hab'.1; norm_num at *; linarith
    norm_num at *; linarith
  have h4 := abs_le.1 (abs_cround_sub_le (D (a / pw (n - 6))))
  have h5 := abs_le.1 (abs_cround_sub_le (b / (10 : ℝ) ^ (n - 6)))
  have h7 := abs_le.1 h3
  have h8 := abs_le.1 h6
  generalize D (a / pw (n - 6)) = q at *
  generalize b / (10 : ℝ) ^ (n - 6) = t at *
  generalize a / (10 : ℝ) ^ (n - 6) = t' at *
  have c1 : cround q ≤ cround t + 1 := by
    have : (cround q : ℝ) < cround t + 2 := by
      have := h4.2; have := h5.1; have := h7.2; have := h8.2
      norm_num at *; linarith
    have : cround q < cround t + 2 := by exact_mod_cast this
    omega
  have c2 : cround t ≤ cround q + 1 := by
    have : (cround t : ℝ) < cround q + 2 := by
      have := h4.1; have := h5.2; have := h7.1; have := h8.1
      norm_num at *; linarith
    have : cround t < cround q + 2 := by exact_mod_cast this
    omega
  rw [abs_le]
  split_ifs <;> constructor <;> omega

/-- The seed 99 meets the hypotheses: the logarithm of 100 is 2. -/
example (S : Rounding binary32) (D : Rounding binary64) :
    |Fp.randomSeed S D (Real.logb 10) (fun n => (10 : ℝ) ^ n) 99 - Sla.randomSeed 99| ≤ 2 := by
  refine C136_near S D (fun a _ _ => by rw [sub_self, abs_zero]; norm_num) (fun n _ _ => by simp only [sub_self, abs_zero]; positivity) (by norm_num) (n := 2) ?_
  have : Real.logb 10 (|99| + 1) = 2 := by
    rw [show (|99| + 1 : ℝ) = 10 ^ (2 : ℝ) by norm_num, Real.logb_rpow (by norm_num) (by norm_num)]
  rw [this]; norm_num

end Sla.Props
