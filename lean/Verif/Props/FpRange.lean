import Verif.Model.FpCode
import Verif.Lemmas.Fp
import Mathlib.Analysis.Real.Pi.Bounds

/-
Property theorems C77: range reduction in floating point.
-/
namespace Sla.Props
open Sla.Fp

/-- `double` nearest to the literal for pi. -/
theorem fp_pi64 (R : Rounding binary64) : R 3.141592653589793238462643 = 884279719003555 / 2 ^ 48 := by
  have h := R.eq_of_near (x := 3.141592653589793238462643) (m := 7074237752028440) (e := -51)
    (by simp [binary64]) (by norm_num [binary64]) (by norm_num [binary64])
    (by rw [abs_lt]; norm_num)
  rw [h]; norm_num

theorem fp_2pi64 (R : Rounding binary64) : R 6.283185307179586476925287 = 884279719003555 / 2 ^ 47 := by
  have h := R.eq_of_near (x := 6.283185307179586476925287) (m := 7074237752028440) (e := -50)
    (by simp [binary64]) (by norm_num [binary64]) (by norm_num [binary64])
    (by rw [abs_lt]; norm_num)
  rw [h]; norm_num

theorem fp_pi32 (R : Rounding binary32) : R 3.141592653589793238462643 = 13176795 / 2 ^ 22 := by
  have h := R.eq_of_near (x := 3.141592653589793238462643) (m := 13176795) (e := -22)
    (by simp [binary32]) (by norm_num [binary32]) (by norm_num [binary32])
    (by rw [abs_lt]; norm_num)
  rw [h]; norm_num

theorem fp_2pi32 (R : Rounding binary32) : R 6.283185307179586476925287 = 13176795 / 2 ^ 21 := by
  have h := R.eq_of_near (x := 6.283185307179586476925287) (m := 13176795) (e := -21)
    (by simp [binary32]) (by norm_num [binary32]) (by norm_num [binary32])
    (by rw [abs_lt]; norm_num)
  rw [h]; norm_num

private theorem drange_gen {F : Fmt} (R : Rounding F) (P : ℝ) (hP : 0 < P)
    (h1 : R 3.141592653589793238462643 = P) (h2 : R 6.283185307179586476925287 = 2 * P) (a : ℝ) (ha : F.Rep a) :
    F.Rep (Fp.drange R a) ∧ |Fp.drange R a| ≤ P ∧ (∃ k : ℤ, Fp.drange R a = a - 2 * P * k) ∧
      (0 ≤ a → Fp.drange R a < P) ∧ (a < 0 → -P < Fp.drange R a) := by
  have r2 : F.Rep (2 * P) := h2 ▸ R.rep _
  have hP2 : 0 < 2 * P := by linarith
  have rm := rep_cfmod ha r2 hP2
  obtain ⟨k, hk⟩ := cfmod_eq a (2 * P)
  have hu : Fp.drange R a = if |cfmod a (2 * P)| ≥ P then R (cfmod a (2 * P) - csign (2 * P) a) else cfmod a (2 * P) := by
    simp only [Fp.drange, h1, h2, R.eq_self rm]
  rw [hu]
  rcases le_or_gt 0 a with h0 | h0
  · obtain ⟨-, c1, c2⟩ := cfmod_nonneg h0 hP2
    have cs : csign (2 * P) a = 2 * P := by unfold csign; rw [if_pos h0, abs_of_pos hP2]
    rw [abs_of_nonneg c1, cs]
    split
    · rename_i hc
      have rs : F.Rep (cfmod a (2 * P) - 2 * P) := sterbenz rm r2 (by linarith) (by linarith)
      rw [R.eq_self rs]
      refine ⟨rs, ?_, ⟨k + 1, by rw [hk]; push_cast; ring⟩, fun _ => by linarith, fun h => by linarith⟩
      rw [abs_le]; constructor <;> linarith
    · rename_i hc
      rw [ge_iff_le, not_le] at hc
      refine ⟨rm, ?_, ⟨k, hk⟩, fun _ => hc, fun h => by linarith⟩
      rw [abs_of_nonneg c1]; exact hc.le
  · obtain ⟨-, c1, c2⟩ := cfmod_neg h0 hP2
    have cs : csign (2 * P) a = -(2 * P) := by unfold csign; rw [if_neg (not_le.2 h0), abs_of_pos hP2]
    rw [abs_of_nonpos c1, cs]
    split
    · rename_i hc
      have rs : F.Rep (cfmod a (2 * P) - -(2 * P)) := by
        have := sterbenz r2 (rep_neg rm) (by linarith) (by linarith)
        rwa [show cfmod a (2 * P) - -(2 * P) = 2 * P - -cfmod a (2 * P) by ring]
      rw [R.eq_self rs]
      refine ⟨rs, ?_, ⟨k - 1, by rw [hk]; push_cast; ring⟩, fun h => by linarith, fun _ => by linarith⟩
      rw [abs_le]; constructor <;> linarith
    · rename_i hc
      rw [ge_iff_le, not_le] at hc
      refine ⟨rm, ?_, ⟨k, hk⟩, fun h => by linarith, fun _ => by linarith⟩
      rw [abs_of_nonpos c1]; exact hc.le

/-- C77: in double precision `drange` is exact: with P the double nearest to pi, the result differs from the argument by
    a whole multiple of 2P, without any rounding error, and lies in [-P, P] (so strictly inside [-pi, pi]); the end
    point P is only reached by negative arguments, -P only by positive ones. -/
theorem C77_drange (R : Rounding binary64) (a : ℝ) (ha : binary64.Rep a) :
    let P : ℝ := 884279719003555 / 2 ^ 48
    |Fp.drange R a| ≤ P ∧ P < Real.pi ∧ (∃ k : ℤ, Fp.drange R a = a - 2 * P * k) ∧
      (0 ≤ a → Fp.drange R a < P) ∧ (a < 0 → -P < Fp.drange R a) := by
  intro P
  have h := drange_gen R P (by norm_num [P]) (fp_pi64 R) (by rw [fp_2pi64]; norm_num [P]) a ha
  refine ⟨h.2.1, ?_, h.2.2⟩
  have := Real.pi_gt_d20
  refine lt_trans ?_ this
  norm_num [P]

/-- C77: the same for `range` in single precision; there the constant P is above pi. -/
theorem C77_range (R : Rounding binary32) (a : ℝ) (ha : binary32.Rep a) :
    let P : ℝ := 13176795 / 2 ^ 22
    |Fp.drange R a| ≤ P ∧ Real.pi < P ∧ (∃ k : ℤ, Fp.drange R a = a - 2 * P * k) ∧
      (0 ≤ a → Fp.drange R a < P) ∧ (a < 0 → -P < Fp.drange R a) := by
  intro P
  have h := drange_gen R P (by norm_num [P]) (fp_pi32 R) (by rw [fp_2pi32]; norm_num [P]) a ha
  refine ⟨h.2.1, ?_, h.2.2⟩
  have := Real.pi_lt_d20
  refine lt_trans this ?_
  norm_num [P]

private theorem dranrm_gen {F : Fmt} (R : Rounding F) (A : ℝ) (hA : 0 < A) {j : ℤ} (hj : F.emin + F.prec ≤ j)
    (hAj : A ≤ 2 ^ j) (h2 : R 6.283185307179586476925287 = A) (a : ℝ) (ha : F.Rep a) :
    F.Rep (Fp.dranrm R a) ∧ 0 ≤ Fp.dranrm R a ∧ Fp.dranrm R a ≤ A ∧
      (∃ k : ℤ, |Fp.dranrm R a - (a - A * k)| ≤ 2 ^ (j - 1 - F.prec)) ∧
      (0 ≤ a → Fp.dranrm R a < A ∧ ∃ k : ℤ, Fp.dranrm R a = a - A * k) := by
  have r2 : F.Rep A := h2 ▸ R.rep _
  have rm := rep_cfmod ha r2 hA
  obtain ⟨k, hk⟩ := cfmod_eq a A
  have hu : Fp.dranrm R a = if cfmod a A < 0 then R (cfmod a A + A) else cfmod a A := by
    simp only [Fp.dranrm, h2, R.eq_self rm]
  have hb := (abs_cfmod a A hA).2
  rw [abs_lt] at hb
  rw [hu]
  split
  · rename_i hc
    refine ⟨R.rep _, R.nonneg (by linarith), R.le_rep (by linarith) r2, ⟨k - 1, ?_⟩, fun h => ?_⟩
    · have := R.abs_sub_le (cfmod a A + A) hj (by rw [abs_of_nonneg (by linarith)]; linarith)
      rw [abs_sub_comm] at this
      convert this using 2
      rw [hk]; push_cast; ring
    · exact absurd hc (not_lt.2 (cfmod_nonneg h hA).2.1)
  · rename_i hc
    rw [not_lt] at hc
    refine ⟨rm, hc, hb.2.le, ⟨k, ?_⟩, fun _ => ⟨hb.2, k, hk⟩⟩
    rw [hk, sub_self, abs_zero]; exact (two_zpow_pos _).le

/-- C77: in double precision `dranrm` returns a number of [0, A] where A is the double nearest to 2pi, which differs from
    the argument by a whole multiple of A up to a rounding error of 2^-51; for non-negative arguments there is no rounding
    error and the result is below A. -/
theorem C77_dranrm (R : Rounding binary64) (a : ℝ) (ha : binary64.Rep a) :
    let A : ℝ := 884279719003555 / 2 ^ 47
    0 ≤ Fp.dranrm R a ∧ Fp.dranrm R a ≤ A ∧ (∃ k : ℤ, |Fp.dranrm R a - (a - A * k)| ≤ 1 / 2 ^ 51) ∧
      (0 ≤ a → Fp.dranrm R a < A ∧ ∃ k : ℤ, Fp.dranrm R a = a - A * k) := by
  intro A
  have h := dranrm_gen R A (by norm_num [A]) (j := 3) (by norm_num [binary64]) (by norm_num [A]) (fp_2pi64 R) a ha
  refine ⟨h.2.1, h.2.2.1, ?_, h.2.2.2.2⟩
  obtain ⟨k, hk⟩ := h.2.2.2.1
  refine ⟨k, hk.trans (le_of_eq ?_)⟩
  norm_num [binary64]

/-- C77: the same for `ranorm` in single precision. -/
theorem C77_ranorm (R : Rounding binary32) (a : ℝ) (ha : binary32.Rep a) :
    let A : ℝ := 13176795 / 2 ^ 21
    0 ≤ Fp.dranrm R a ∧ Fp.dranrm R a ≤ A ∧ (∃ k : ℤ, |Fp.dranrm R a - (a - A * k)| ≤ 1 / 2 ^ 22) ∧
      (0 ≤ a → Fp.dranrm R a < A ∧ ∃ k : ℤ, Fp.dranrm R a = a - A * k) := by
  intro A
  have h := dranrm_gen R A (by norm_num [A]) (j := 3) (by norm_num [binary32]) (by norm_num [A]) (fp_2pi32 R) a ha
  refine ⟨h.2.1, h.2.2.1, ?_, h.2.2.2.2⟩
  obtain ⟨k, hk⟩ := h.2.2.2.1
  refine ⟨k, hk.trans (le_of_eq ?_)⟩
  norm_num [binary32]

/-- C77: the documented range "0 to 2pi" of `dranrm` is closed in double precision: every negative argument above
    -2^-51 returns the value of a whole turn, and a second call then returns 0: the function is not idempotent. -/
theorem C77_dranrm_full_turn (R : Rounding binary64) (a : ℝ) (ha : binary64.Rep a) (h0 : a < 0)
    (h1 : -(1 / 2 ^ 51) < a) :
    let A : ℝ := 884279719003555 / 2 ^ 47
    Fp.dranrm R a = A ∧ Fp.dranrm R A = 0 ∧ A = R (2 * 3.1415926535897932384626435) := by
  intro A
  have hA : 0 < A := by norm_num [A]
  have hA2 : R 6.283185307179586476925287 = A := fp_2pi64 R
  have r2 : binary64.Rep A := hA2 ▸ R.rep _
  have e : ∀ x, binary64.Rep x → Fp.dranrm R x = if cfmod x A < 0 then R (cfmod x A + A) else cfmod x A := by
    intro x hx
    simp only [Fp.dranrm, hA2, R.eq_self (rep_cfmod hx r2 hA)]
  have hA1 : (1 : ℝ) < A := by norm_num [A]
  have h51 : (1 : ℝ) / 2 ^ 51 < 1 := by norm_num
  refine ⟨?_, ?_, ?_⟩
  · have hm : cfmod a A = a := by
      unfold cfmod
      rw [ctrunc_of_neg (div_neg_of_neg_of_pos h0 hA)]
      have : ⌈a / A⌉ = 0 := by
        rw [Int.ceil_eq_iff]; push_cast
        constructor
        · rw [lt_div_iff₀ hA]; linarith
        · exact (div_neg_of_neg_of_pos h0 hA).le
      rw [this]; simp
    rw [e a ha, hm, if_pos h0]
    have := R.eq_of_near (x := a + A) (m := 7074237752028440) (e := -50)
      (by simp [binary64]) (by norm_num [binary64]) (by norm_num [binary64])
      (by
        have : ((7074237752028440 : ℤ) : ℝ) * 2 ^ (-50 : ℤ) = A := by norm_num [A]
        rw [this, abs_lt]
        norm_num at h1 ⊢
        constructor <;> linarith)
    rw [this]; norm_num [A]
  · have hm : cfmod A A = 0 := by
      unfold cfmod; rw [div_self hA.ne', ctrunc_of_nonneg zero_le_one]; simp
    rw [e A r2, hm]; simp
  · have h := R.eq_of_near (x := 2 * 3.1415926535897932384626435) (m := 7074237752028440) (e := -50)
      (by simp [binary64]) (by norm_num [binary64]) (by norm_num [binary64])
      (by rw [abs_lt]; norm_num)
    rw [h]; norm_num [A]

example : ∃ a : ℝ, binary64.Rep a ∧ a < 0 ∧ -(1 / 2 ^ 51) < a ∧
    Fp.dranrm (ieee binary64) a = 884279719003555 / 2 ^ 47 := by
  have h : binary64.Rep (-(1 / 2 ^ 60)) :=
    ⟨-1, -60, by norm_num [binary64], by norm_num [binary64], by norm_num⟩
  exact ⟨_, h, by norm_num, by norm_num, (C77_dranrm_full_turn (ieee binary64) _ h (by norm_num) (by norm_num)).1⟩

example : |Fp.drange (ieee binary64) 100| ≤ 884279719003555 / 2 ^ 48 :=
  (C77_drange (ieee binary64) 100 ⟨100, 0, by norm_num [binary64], by norm_num [binary64], by norm_num⟩).1

end Sla.Props
