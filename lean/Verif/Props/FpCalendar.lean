import Verif.Model.FpCode
import Verif.Lemmas.Fp
import Verif.Props.Calendar

/-
Property theorems C78: calendar conversions in double precision.
-/
namespace Sla.Props
open Sla.Fp _root_.Spec

private theorem date_of_day (n : Int) (hn : -2395521 ≤ n) :
    ∃ D : YMD, djclExpr (n + 2400001) = ⟨D.year, D.month, D.day⟩ ∧ D.Valid ∧ IsDayNumber D n := by
  obtain ⟨k, hk, hkn⟩ := exists_date n hn
  have hyear : -4711 ≤ (addDays k startDate).year :=
    le_trans (by decide) (addDays_year_ge k startDate)
  have hval := addDays_valid startDate_valid k
  refine ⟨addDays k startDate, ?_, hval, ?_⟩
  · conv_lhs => rw [← hkn]
    exact djclExpr_cldjExpr hval hyear (by rw [hkn]; exact hn)
  · have := isDayNumber_cldjExpr hval hyear (by rw [hkn]; exact hn)
    rwa [hkn] at this

private theorem rep_one64 : binary64.Rep 1 := ⟨1, 0, by norm_num [binary64], by norm_num [binary64], by norm_num⟩

/-- The day and the fraction that the floating point `djcl` computes. -/
private theorem djcl_core (R : Rounding binary64) (mjd : ℝ) (hr : binary64.Rep mjd) (h1 : -2395520 < mjd)
    (h2 : mjd < 1e9) :
    ∃ f : ℝ, Fp.djcl R mjd = some (djclExpr (⌊mjd⌋ + 2400001), f) ∧ binary64.Rep f ∧ 0 ≤ f ∧ f ≤ 1 ∧
      |f - Int.fract mjd| ≤ 1 / 2 ^ 54 ∧ (0 ≤ mjd → f = Int.fract mjd) ∧
      (cfmod mjd 1 < 0 → f = R (cfmod mjd 1 + 1)) := by
  have hm := rep_cfmod hr rep_one64 one_pos
  have hw := cfmod_one_wrap mjd
  have hemin : binary64.emin ≤ 0 := by norm_num [binary64]
  have hfl := Int.floor_add_fract mjd
  have hfr0 := Int.fract_nonneg mjd
  have hfr1 := Int.fract_lt_one mjd
  have hflb : |((⌊mjd⌋ : ℤ) : ℝ)| < 2 ^ (30 : ℤ) := by
    rw [abs_lt]; constructor <;> norm_num at h2 ⊢ <;> linarith
  have hflr : binary64.Rep ((⌊mjd⌋ : ℤ) : ℝ) := by
    apply rep_int hemin
    have : |⌊mjd⌋| < 2 ^ 30 := by
      have l1 : -2395521 ≤ ⌊mjd⌋ := by rw [Int.le_floor]; push_cast; linarith
      have l2 : ⌊mjd⌋ < 1000000000 := by rw [Int.floor_lt]; push_cast; norm_num at h2; exact h2
      rw [abs_lt]; constructor <;> omega
    norm_num [binary64] at this ⊢; omega
  -- the day, whatever the fraction is, as long as it is close
  have hday : ∀ f : ℝ, |f - Int.fract mjd| ≤ 1 / 2 ^ 54 →
      cround (R (cround (R (mjd - f)))) = ⌊mjd⌋ := by
    intro f hf
    have e : cround (R (mjd - f)) = ⌊mjd⌋ := by
      apply cround_eq_of_abs
      have hy : |mjd - f| < 2 ^ (31 : ℤ) := by
        rw [abs_lt]; rw [abs_le] at hf
        norm_num at h2 hf ⊢
        constructor <;> linarith [hf.1, hf.2]
      have := R.abs_sub_le (mjd - f) (k := 31) (by norm_num [binary64]) hy
      rw [abs_le] at this hf
      rw [abs_lt]
      norm_num [binary64] at this hf ⊢
      constructor <;> linarith [hf.1, hf.2, this.1, this.2]
    rw [e, R.eq_self hflr, cround_intCast]
  by_cases hc : cfmod mjd 1 < 0
  · rw [if_pos hc] at hw
    have hf : |R (cfmod mjd 1 + 1) - Int.fract mjd| ≤ 1 / 2 ^ 54 := by
      have := R.abs_sub_le (cfmod mjd 1 + 1) (k := 0) (by norm_num [binary64])
        (by rw [hw, abs_of_nonneg hfr0]; simpa using hfr1)
      rw [abs_sub_comm, hw] at this
      rw [hw]
      refine this.trans (le_of_eq ?_)
      norm_num [binary64]
    refine ⟨R (cfmod mjd 1 + 1), ?_, R.rep _, R.nonneg (by rw [hw]; exact hfr0),
      R.le_rep (by rw [hw]; exact hfr1.le) rep_one64, hf, fun h => ?_, fun _ => rfl⟩
    · unfold Fp.djcl
      rw [if_neg (by push Not; constructor <;> linarith)]
      simp only [R.eq_self hm, if_pos hc, hday _ hf]
    · exact absurd hc (not_lt.2 (cfmod_nonneg h one_pos).2.1)
  · rw [if_neg hc] at hw
    have hf : |cfmod mjd 1 - Int.fract mjd| ≤ 1 / 2 ^ 54 := by
      rw [hw, sub_self, abs_zero]; norm_num
    refine ⟨cfmod mjd 1, ?_, hm, by rw [hw]; exact hfr0, by rw [hw]; exact hfr1.le, hf, fun _ => hw,
      fun h => absurd h hc⟩
    unfold Fp.djcl
    rw [if_neg (by push Not; constructor <;> linarith)]
    simp only [R.eq_self hm, if_neg hc, hday _ hf]

/-- C78: in double precision `djcl` returns, for every MJD in its range, the Gregorian date of the day that contains the
    instant, and a fraction in [0, 1] which with the day number gives the MJD up to 2^-54 day; from 1858 November 17 on
    the fraction is exact and below 1. -/
theorem C78_djcl (R : Rounding binary64) (mjd : ℝ) (hr : binary64.Rep mjd) (h1 : -2395520 < mjd) (h2 : mjd < 1e9) :
    ∃ (D : YMD) (f : ℝ) (n : Int), Fp.djcl R mjd = some (⟨D.year, D.month, D.day⟩, f) ∧ D.Valid ∧ IsDayNumber D n ∧
      (n : ℝ) ≤ mjd ∧ mjd < n + 1 ∧ 0 ≤ f ∧ f ≤ 1 ∧ |(n : ℝ) + f - mjd| ≤ 1 / 2 ^ 54 ∧
      (0 ≤ mjd → f < 1 ∧ (n : ℝ) + f = mjd) := by
  obtain ⟨f, e, -, f0, f1, fe, fp, -⟩ := djcl_core R mjd hr h1 h2
  obtain ⟨D, d1, d2, d3⟩ := date_of_day ⌊mjd⌋ (by rw [Int.le_floor]; push_cast; linarith)
  have hfl := Int.floor_add_fract mjd
  refine ⟨D, f, ⌊mjd⌋, by rw [e, d1], d2, d3, Int.floor_le _, Int.lt_floor_add_one _, f0, f1, ?_, fun h => ?_⟩
  · convert fe using 2; linarith
  · rw [fp h]; exact ⟨Int.fract_lt_one _, hfl⟩

/-- C78: the fraction can be 1: any negative MJD above -2^-54 (within 5 femtoseconds of 1858 November 17.0) is reported as
    1858 November 16 with a fraction of a whole day. -/
theorem C78_djcl_whole_day (R : Rounding binary64) (mjd : ℝ) (hr : binary64.Rep mjd) (h0 : mjd < 0)
    (h1 : -(1 / 2 ^ 54) < mjd) : Fp.djcl R mjd = some (⟨1858, 11, 16⟩, 1) := by
  have hm1 : -1 < mjd := by norm_num at h1 ⊢; linarith
  obtain ⟨f, e, -, -, -, -, -, fc⟩ := djcl_core R mjd hr (by linarith) (by norm_num; linarith)
  have hfloor : ⌊mjd⌋ = -1 := by
    rw [Int.floor_eq_iff]; push_cast; constructor <;> linarith
  have hm : cfmod mjd 1 = mjd := by
    unfold cfmod
    rw [ctrunc_of_neg (by linarith [div_one mjd])]
    have : ⌈mjd / 1⌉ = 0 := by
      rw [div_one, Int.ceil_eq_iff]; push_cast; constructor <;> linarith
    rw [this]; simp
  have hf : f = 1 := by
    rw [fc (by rw [hm]; exact h0), hm]
    have := R.eq_of_near_pow (x := mjd + 1) (e := -52) (by norm_num [binary64])
      (by
        have : ((2 : ℝ) ^ (binary64.prec - 1)) * 2 ^ (-52 : ℤ) = 1 := by norm_num [binary64]
        rw [this, abs_lt]
        norm_num at h1 ⊢
        constructor <;> linarith)
    rw [this]; norm_num [binary64]
  rw [e, hf, hfloor]
  have : djclExpr (-1 + 2400001) = ⟨1858, 11, 16⟩ := by decide
  rw [this]

/-- C78: the date and fraction that `djcl` returns lead back to the very same double: adding the fraction to the MJD that
    `cldj` returns for the date restores `mjd` without error from 1858 November 17 on, and up to 2^-31 day before. -/
theorem C78_djcl_cldj (R : Rounding binary64) (mjd : ℝ) (hr : binary64.Rep mjd) (c : CalDate) (f : ℝ)
    (h : Fp.djcl R mjd = some (c, f)) (hy : -4699 ≤ c.year) (old : ℝ) :
    ∃ v, cldj c.year c.month c.day old = (.ok, v) ∧ |R (v + f) - mjd| ≤ 1 / 2 ^ 31 ∧
      (0 ≤ mjd → R (v + f) = mjd) := by
  have hrng : ¬(mjd ≤ -2395520 ∨ mjd ≥ 1e9) := by
    intro hc
    unfold Fp.djcl at h
    rw [if_pos hc] at h; simp at h
  push Not at hrng
  obtain ⟨D, f', n, e, d2, d3, n1, n2, f0, f1, fe, fp⟩ := C78_djcl R mjd hr hrng.1 hrng.2
  rw [h] at e
  simp only [Option.some.injEq, Prod.mk.injEq] at e
  obtain ⟨rfl, rfl⟩ := e
  obtain ⟨m, hm, hc⟩ := C01_cldj_counts_days D d2 hy old
  have hmn := C01_dayNumber_unique D d2 hy m n hm d3
  subst hmn
  refine ⟨m, hc, ?_, fun h0 => ?_⟩
  · have hy : |(m : ℝ) + f| < 2 ^ (31 : ℤ) := by
      have a1 := hrng.1; have a2 := hrng.2
      rw [abs_lt]; rw [abs_le] at fe
      norm_num at a2 fe ⊢
      constructor <;> linarith [fe.1, fe.2]
    by_cases h0 : 0 ≤ mjd
    · rw [(fp h0).2, R.eq_self hr, sub_self, abs_zero]; norm_num
    · have hy2 : |(m : ℝ) + f| < 2 ^ (22 : ℤ) := by
        have a1 := hrng.1
        rw [not_le] at h0
        rw [abs_lt]; rw [abs_le] at fe
        norm_num at fe ⊢
        constructor <;> linarith [fe.1, fe.2]
      have := R.abs_sub_le _ (k := 22) (by norm_num [binary64]) hy2
      rw [abs_le] at this fe ⊢
      norm_num [binary64] at this fe ⊢
      constructor <;> linarith [fe.1, fe.2, this.1, this.2]
  · rw [(fp h0).2, R.eq_self hr]

/-- C78: in double precision `djcal` with up to 9 decimal places returns, for every MJD in its range, a valid date and an
    integer fraction below `10^ndp` which together are within half a unit of the MJD plus the rounding error of one
    multiplication. -/
theorem C78_djcal (R : Rounding binary64) (ndp : Int) (mjd : ℝ) (hp : ndp ≤ 9) (h1 : -2395520 < mjd) (h2 : mjd < 1e9) :
    ∃ (D : YMD) (i n : Int), Fp.djcal R ndp mjd = some (⟨D.year, D.month, D.day⟩, i) ∧
      D.Valid ∧ IsDayNumber D n ∧ 0 ≤ i ∧ i < 10 ^ (max ndp 0).toNat ∧
      |((n : ℝ) + i / 10 ^ (max ndp 0).toNat) - mjd| ≤ 1 / 2 / 10 ^ (max ndp 0).toNat + |mjd| / 2 ^ 53 := by
  have hk : (max ndp 0).toNat ≤ 9 := by omega
  obtain ⟨p, hpdef⟩ : ∃ p, p = (max ndp 0).toNat := ⟨_, rfl⟩
  rw [← hpdef] at hk ⊢
  obtain ⟨N, hN⟩ : ∃ N : Int, N = 10 ^ p := ⟨_, rfl⟩
  have hN0 : 0 < N := by rw [hN]; positivity
  have hN1 : 1 ≤ N := hN0
  have hN9 : N ≤ 10 ^ 9 := by rw [hN]; exact pow_le_pow_right₀ (by norm_num) hk
  have hNr : (0 : ℝ) < (N : ℝ) := by exact_mod_cast hN0
  have hN1r : (1 : ℝ) ≤ (N : ℝ) := by exact_mod_cast hN1
  have hN9r : (N : ℝ) ≤ 10 ^ 9 := by exact_mod_cast hN9
  have hNp : (10 : ℝ) ^ p = (N : ℝ) := by rw [hN]; push_cast; rfl
  rw [hNp, ← hN]
  have hemin : binary64.emin ≤ 0 := by norm_num [binary64]
  have hNrep : binary64.Rep (N : ℝ) := rep_int hemin (by rw [abs_of_pos hN0]; norm_num [binary64]; omega)
  obtain ⟨u, hu⟩ : ∃ u : Int, u = cround (R (mjd * N)) := ⟨_, rfl⟩
  have hurep : binary64.Rep (u : ℝ) := by rw [hu]; exact rep_cround hemin (R.rep _)
  have h2' : mjd < 1000000000 := by norm_num at h2; exact h2
  -- size of the rounded product
  have hlo : ((-2395520 * N : Int) : ℝ) ≤ R (mjd * N) := by
    apply R.rep_le
    · push_cast; nlinarith
    · apply rep_int hemin; norm_num [binary64]
      rw [abs_of_nonneg hN0.le]; nlinarith
  have hhi : R (mjd * N) ≤ ((1000000000 * N : Int) : ℝ) := by
    rw [← R.eq_self (x := ((1000000000 * N : Int) : ℝ))]
    · apply R.mono; push_cast; nlinarith
    · -- a product of powers of ten up to 10^18 has at most 42 significant bits
      refine ⟨5 ^ (9 + p), 9 + p, ?_, ?_, ?_⟩
      · rw [abs_of_pos (by positivity)]
        calc (5 : ℤ) ^ (9 + p) ≤ 5 ^ 18 := pow_le_pow_right₀ (by norm_num) (by omega)
          _ < 2 ^ binary64.prec := by norm_num [binary64]
      · have : binary64.emin = -1074 := rfl
        omega
      · rw [hN]
        push_cast
        rw [show ((9 : ℤ) + (p : ℤ)) = ((9 + p : ℕ) : ℤ) by push_cast; rfl, zpow_natCast, ← mul_pow]
        norm_num [pow_add]
  have hue := abs_cround_sub_le (R (mjd * N))
  rw [← hu] at hue
  have hue' := abs_le.1 hue
  have hu1 : -2395520 * N ≤ u := by
    have : ((-2395520 * N - 1 : Int) : ℝ) < (u : ℝ) := by push_cast at hlo ⊢; linarith [hue'.1]
    have : -2395520 * N - 1 < u := by exact_mod_cast this
    omega
  have hu2 : u ≤ 1000000000 * N := by
    have : (u : ℝ) < ((1000000000 * N + 1 : Int) : ℝ) := by push_cast at hhi ⊢; linarith [hue'.2]
    have : u < 1000000000 * N + 1 := by exact_mod_cast this
    omega
  have hq1 : -2395520 ≤ u / N := by rw [Int.le_ediv_iff_mul_le hN0]; linarith
  have hq2 : u / N ≤ 1000000000 := by
    have := Int.ediv_le_ediv hN0 hu2
    rwa [Int.mul_ediv_cancel _ hN0.ne'] at this
  have hm0 := Int.emod_nonneg u hN0.ne'
  have hm1 := Int.emod_lt_of_pos u hN0
  have hmrep : binary64.Rep ((u % N : Int) : ℝ) :=
    rep_int hemin (by rw [abs_of_nonneg hm0]; norm_num [binary64]; omega)
  have hfl : ⌊(u : ℝ) / (N : ℝ)⌋ = u / N := by
    rw [Int.floor_eq_iff, le_div_iff₀ hNr, div_lt_iff₀ hNr]
    constructor
    · exact_mod_cast Int.ediv_mul_le u hN0.ne'
    · exact_mod_cast Int.lt_ediv_add_one_mul_self u hN0
  have hmod : (u : ℝ) - N * ((u / N : Int) : ℝ) = ((u % N : Int) : ℝ) := by
    have := Int.emod_def u N
    rw [this]; push_cast; ring
  -- the fraction
  have hw := cfmod_wrap (u : ℝ) hNr
  rw [hfl, hmod] at hw
  have hf : (if R (cfmod (u : ℝ) N) < 0 then R (R (cfmod (u : ℝ) N) + N) else R (cfmod (u : ℝ) N))
      = ((u % N : Int) : ℝ) := by
    rw [R.eq_self (rep_cfmod hurep hNrep hNr)]
    split
    · rename_i hc; rw [if_pos hc] at hw; rw [hw, R.eq_self hmrep]
    · rename_i hc; rw [if_neg hc] at hw; exact hw
  -- the day
  have hd : cround (R (R ((u : ℝ) - ((u % N : Int) : ℝ)) / N)) = u / N := by
    have e : (u : ℝ) - ((u % N : Int) : ℝ) = N * ((u / N : Int) : ℝ) := by rw [← hmod]; ring
    rw [e]
    obtain ⟨q, hq⟩ : ∃ q : Int, q = u / N := ⟨_, rfl⟩
    rw [← hq] at hq1 hq2 ⊢
    have hqr1 : (-2395520 : ℝ) ≤ q := by exact_mod_cast hq1
    have hqr2 : (q : ℝ) ≤ 1000000000 := by exact_mod_cast hq2
    have hqa : |(q : ℝ)| ≤ 1000000000 := by rw [abs_le]; constructor <;> linarith
    have h3 : |(N : ℝ) * q| ≤ N * 1000000000 := by
      rw [abs_mul, abs_of_pos hNr]; exact mul_le_mul_of_nonneg_left hqa hNr.le
    have h4 := R.error_le ((N : ℝ) * q)
    have h5 : |R ((N : ℝ) * q) / N - q| ≤ 1 / 1000 := by
      have e2 : R ((N : ℝ) * q) / N - q = (R ((N : ℝ) * q) - N * q) / N := by field_simp
      rw [e2, abs_div, abs_of_pos hNr, div_le_iff₀ hNr, abs_sub_comm]
      refine h4.trans ?_
      have h6 : (2 : ℝ) ^ (binary64.emin - 1) ≤ 1 / 10000 := by
        rw [show binary64.emin - 1 = -1075 by rfl]
        calc (2 : ℝ) ^ (-1075 : ℤ) ≤ 2 ^ (-20 : ℤ) := two_zpow_le (by norm_num)
          _ ≤ 1 / 10000 := by norm_num
      have h7 : (2 : ℝ) ^ (-(binary64.prec : ℤ)) = 1 / 2 ^ 53 := by norm_num [binary64]
      rw [h7]
      have h10 : (1 : ℝ) / 2 ^ 53 * |(N : ℝ) * q| ≤ 1 / 2 ^ 53 * (N * 1000000000) :=
        mul_le_mul_of_nonneg_left h3 (by positivity)
      have h11 : (1 : ℝ) / 2 ^ 53 * (N * 1000000000) ≤ 1 / 5000 * N := by
        rw [show (1 : ℝ) / 2 ^ 53 * (N * 1000000000) = 1000000000 / 2 ^ 53 * N by ring]
        exact mul_le_mul_of_nonneg_right (by norm_num) hNr.le
      linarith
    apply cround_eq_of_abs
    have h8 : |R ((N : ℝ) * q) / N| < 2 ^ (30 : ℤ) := by
      rw [abs_le] at h5; rw [abs_lt]
      norm_num at h5 ⊢
      constructor <;> linarith [h5.1, h5.2]
    have h9 := R.abs_sub_le _ (k := 30) (by norm_num [binary64]) h8
    rw [abs_le] at h5 h9; rw [abs_lt]
    norm_num [binary64] at h5 h9 ⊢
    constructor <;> linarith [h5.1, h5.2, h9.1, h9.2]
  obtain ⟨D, d1, d2, d3⟩ := date_of_day (u / N) (by omega)
  refine ⟨D, u % N, u / N, ?_, d2, d3, hm0, hm1, ?_⟩
  · unfold Fp.djcal
    rw [if_neg (by push Not; constructor <;> linarith)]
    simp only [← hpdef, ← hN, R.eq_self hNrep, ← hu, R.eq_self hurep, hf, hd, cround_intCast, djcalExpr_eq, d1]
  · rw [← hmod]
    have e : ((u / N : Int) : ℝ) + ((u : ℝ) - N * ((u / N : Int) : ℝ)) / N - mjd = (u - mjd * N) / N := by
      field_simp; ring
    rw [e, abs_div, abs_of_pos hNr, div_le_iff₀ hNr]
    have e3 : (1 / 2 / (N : ℝ) + |mjd| / 2 ^ 53) * N = 1 / 2 + |mjd| * N / 2 ^ 53 := by field_simp
    rw [e3]
    -- an argument whose product underflows rounds to zero
    rcases le_or_gt (1 / 4) |mjd * N| with hs | hs
    · have h4 := R.rel_error (mjd * N) (by
        refine le_trans ?_ hs
        rw [show binary64.emin + (binary64.prec : ℤ) - 1 = -1022 by rfl]
        calc (2 : ℝ) ^ (-1022 : ℤ) ≤ 2 ^ (-2 : ℤ) := two_zpow_le (by norm_num)
          _ ≤ 1 / 4 := by norm_num)
      have h7 : (2 : ℝ) ^ (-(binary64.prec : ℤ)) = 1 / 2 ^ 53 := by norm_num [binary64]
      rw [h7, abs_mul, abs_of_pos hNr] at h4
      have := abs_sub_le (u : ℝ) (R (mjd * N)) (mjd * N)
      rw [abs_sub_comm (R (mjd * N))] at this
      have e5 : 1 / 2 ^ 53 * (|mjd| * (N : ℝ)) = |mjd| * N / 2 ^ 53 := by ring
      linarith
    · have hb : |R (mjd * N)| ≤ 1 / 4 := by
        rw [← R.abs_eq]
        exact R.le_rep hs.le ⟨1, -2, by norm_num [binary64], by norm_num [binary64], by norm_num⟩
      have hu0 : u = 0 := by
        rw [hu]; apply cround_eq_of_abs
        push_cast; rw [sub_zero]; linarith
      rw [hu0, Int.cast_zero, zero_sub, abs_neg]
      have : 0 ≤ |mjd| * (N : ℝ) / 2 ^ 53 := by positivity
      linarith

example : ∃ (D : YMD) (f : ℝ) (n : Int), Fp.djcl (ieee binary64) 51544.5 = some (⟨D.year, D.month, D.day⟩, f) ∧ D.Valid ∧
    IsDayNumber D n ∧ (n : ℝ) + f = 51544.5 := by
  obtain ⟨D, f, n, h1, h2, h3, -, -, -, -, -, h4⟩ := C78_djcl (ieee binary64) 51544.5
    ⟨103089, -1, by norm_num [binary64], by norm_num [binary64], by norm_num⟩ (by norm_num) (by norm_num)
  exact ⟨D, f, n, h1, h2, h3, (h4 (by norm_num)).2⟩

example : Fp.djcl (ieee binary64) (-(1 / 2 ^ 60)) = some (⟨1858, 11, 16⟩, 1) :=
  C78_djcl_whole_day _ _ ⟨-1, -60, by norm_num [binary64], by norm_num [binary64], by norm_num⟩ (by norm_num) (by norm_num)

end Sla.Props
